import Verif.Spec.Agree
import Verif.Props.Options
import Verif.Props.Line
import Verif.Props.Wrapper

/-!
# C68: related validators agree with each other
-/

namespace Verif.Props.Agree

open Verif.Spec Verif.Spec.Agree Verif.Spec.Options Verif.Spec.Ip Verif.Spec.Domain
open Verif.BaseN (strBytes)
open Verif.Props.Options (hostCore domainCore host_gives domain_gives)

/-! ## `base64` and `base64_url` -/

theorem sym_urlSafe : ∀ b, BaseN.base64Url.sym (urlSafe b) = BaseN.base64.sym b ∧ (urlSafe b = asc '=' ↔ b = asc '=') := by
  apply BaseN.forall_uint8; decide +kernel

theorem value_urlSafe : ∀ b, BaseN.enc64Url.value (urlSafe b) = BaseN.enc64.value b := by
  apply BaseN.forall_uint8; decide +kernel

theorem urlSafe_inv : ∀ b, urlSafe (urlSafe b) = b := by
  apply BaseN.forall_uint8; decide +kernel

theorem all_urlSafe (v : List UInt8) : (v.map urlSafe).all BaseN.base64Url.sym = v.all BaseN.base64.sym := by
  induction v with
  | nil => rfl
  | cons b v ih => simp only [List.map_cons, List.all_cons, ih, (sym_urlSafe b).1]

theorem pads_urlSafe (v : List UInt8) : (v.map urlSafe).all (· == asc '=') = v.all (· == asc '=') := by
  induction v with
  | nil => rfl
  | cons b v ih =>
    have : (urlSafe b == asc '=') = (b == asc '=') := by
      have := (sym_urlSafe b).2
      by_cases h : b = asc '=' <;> simp [h] at this ⊢ <;> exact this
    simp only [List.map_cons, List.all_cons, ih, this]

theorem lastLoop_urlSafe (pad : TriAllow) (n : Nat) (rest : List UInt8) (p : Nat) :
    BaseN.lastLoop BaseN.base64Url pad n (rest.map urlSafe) p = BaseN.lastLoop BaseN.base64 pad n rest p := by
  induction rest generalizing p with
  | nil => rw [List.map_nil, BaseN.lastLoop, BaseN.lastLoop]
  | cons b rest ih =>
    rw [List.map_cons]
    unfold BaseN.lastLoop
    cases pad <;> simp only [(sym_urlSafe b).1, (sym_urlSafe b).2, ih, pads_urlSafe] <;> rfl

theorem check_urlSafe (pad : TriAllow) (v : List UInt8) :
    BaseN.check BaseN.base64Url pad (v.map urlSafe) = BaseN.check BaseN.base64 pad v := by
  unfold BaseN.check
  simp only [List.length_map, ← List.map_take, ← List.map_drop, all_urlSafe, lastLoop_urlSafe]
  rfl

theorem mapM_map' {α β γ : Type} (f : α → β) (g : β → Option γ) (h : α → Option γ) (e : ∀ a, g (f a) = h a) (v : List α) :
    (v.map f).mapM g = v.mapM h := by
  induction v with
  | nil => rfl
  | cons b v ih => simp only [List.map_cons, List.mapM_cons, ih, e]

theorem mapM_urlSafe (v : List UInt8) : (v.map urlSafe).mapM BaseN.enc64Url.value = v.mapM BaseN.enc64.value :=
  mapM_map' _ _ _ value_urlSafe v

theorem nopad_urlSafe (v : List UInt8) : BaseN.enc64Url.decodeNopad (v.map urlSafe) = BaseN.enc64.decodeNopad v := by
  unfold BaseN.Encoding.decodeNopad
  simp only [List.length_map, mapM_urlSafe]
  rfl

theorem takeWhile_urlSafe (v : List UInt8) : ((v.map urlSafe).takeWhile (· == asc '=')).length = (v.takeWhile (· == asc '=')).length := by
  induction v with
  | nil => rfl
  | cons b v ih =>
    have := (sym_urlSafe b).2
    by_cases h : b = asc '='
    · have h' := this.2 h
      rw [List.map_cons, List.takeWhile_cons_of_pos (by simpa using h'), List.takeWhile_cons_of_pos (by simpa using h)]
      simp [ih]
    · have h' : urlSafe b ≠ asc '=' := fun e => h (this.1 e)
      simp [List.takeWhile_cons, h', h]

theorem block_urlSafe (v : List UInt8) : BaseN.enc64Url.decodeBlock (v.map urlSafe) = BaseN.enc64.decodeBlock v := by
  unfold BaseN.Encoding.decodeBlock
  simp only [← List.map_reverse, takeWhile_urlSafe, List.length_map, ← List.map_take, nopad_urlSafe]
  rfl

theorem blocks_map (E E' : BaseN.Encoding) (f : UInt8 → UInt8) (hb : E'.block = E.block)
    (h : ∀ v, E'.decodeBlock (v.map f) = E.decodeBlock v) (n : Nat) (v : List UInt8) : E'.decodeBlocks n (v.map f) = E.decodeBlocks n v := by
  induction n generalizing v with
  | zero => rfl
  | succ n ih =>
    rw [BaseN.Encoding.decodeBlocks, BaseN.Encoding.decodeBlocks, hb]
    simp only [← List.map_take, ← List.map_drop, h, ih]

theorem blocks_urlSafe (n : Nat) (v : List UInt8) : BaseN.enc64Url.decodeBlocks n (v.map urlSafe) = BaseN.enc64.decodeBlocks n v :=
  blocks_map BaseN.enc64 BaseN.enc64Url urlSafe rfl block_urlSafe n v

theorem pad_urlSafe (v : List UInt8) : BaseN.enc64Url.decodePad (v.map urlSafe) = BaseN.enc64.decodePad v := by
  unfold BaseN.Encoding.decodePad
  simp only [List.length_map, blocks_urlSafe]
  rfl

/-- C68: `base64_url` and `base64_url_decoded` do to a text what `base64` and `base64_decoded` do to the text with `-` and `+`, `_` and `/`
exchanged, for every outcome. -/
theorem C68_base64 (pad : TriAllow) (v : List UInt8) :
    BaseN.parseU8Slice BaseN.base64Url pad (v.map urlSafe) = (BaseN.parseU8Slice BaseN.base64 pad v).map (·.map urlSafe) ∧
    BaseN.decodedParse BaseN.enc64Url pad (v.map urlSafe) = BaseN.decodedParse BaseN.enc64 pad v ∧
    BaseN.decodedValidate BaseN.base64Url pad (v.map urlSafe) = BaseN.decodedValidate BaseN.base64 pad v := by
  refine ⟨?_, ?_, check_urlSafe pad v⟩
  · unfold BaseN.parseU8Slice
    rw [check_urlSafe]
    cases BaseN.check BaseN.base64 pad v <;> rfl
  · unfold BaseN.decodedParse
    rw [List.getLast?_map]
    cases v.getLast? with
    | none => rfl
    | some b =>
      simp only [Option.map_some, pad_urlSafe, nopad_urlSafe, (sym_urlSafe b).2]

example : BaseN.parseU8Slice BaseN.base64 .allow (ascii "+/A=") = .ok (ascii "+/A=") ∧ (ascii "+/A=").map urlSafe = ascii "-_A=" ∧
    BaseN.parseU8Slice BaseN.base64Url .allow (ascii "-_A=") = .ok (ascii "-_A=") := by decide +kernel

/-! ## `host`, `ip` and `domain` -/

/-- C68: `host` accepts a text as an address exactly if the validator of that kind of address does with the same `local` and `port`
options, unless `at_least_two_labels(Disallow)` is set. -/
theorem C68_host_address (o : Host.Opts) (idna : Domain.Idna) (cs : List Char) (p : Option Nat) :
    (∀ x, Gives (Host.parseStr o idna (strBytes cs)) hostCore (.ipv4 x, p) ↔
      Ip.parseStr Ip.parseIpv4 o.loc o.port (strBytes cs) = .ok (x, p) ∧ o.atl ≠ .disallow) ∧
    (∀ x, Gives (Host.parseStr o idna (strBytes cs)) hostCore (.ipv6 x, p) ↔
      Ip.parseStr Ip.parseIpv6 o.loc o.port (strBytes cs) = .ok (x, p) ∧ o.atl ≠ .disallow) := by
  have free : ∀ h, Gives (Host.parseStr ⟨.allow, .allow, .allow⟩ idna (strBytes cs)) hostCore (h, p) ↔
      Host.parseStr ⟨.allow, .allow, .allow⟩ idna (strBytes cs) = .ok ⟨h, none, p⟩ := by
    intro h
    constructor
    · rintro ⟨⟨h', l, p'⟩, hv, e⟩
      injection e with e1 e2
      dsimp only at e1 e2
      subst e1 e2
      have hl : l = none := by
        rcases ((Props.Host.C37_host _ _ _ _).1 hv).2 with ⟨_, _, _, _, _, t⟩ | ⟨_, _, _, _, _, t⟩ | ⟨_, _, _, _, _, _, _, _, t⟩ <;>
          exact t.2 (by simp [Verif.Spec.Host.ShowsLocal])
      rw [hv, hl]
    · intro hv; exact ⟨_, hv, rfl⟩
  have t : ∀ p, Tells (Verif.Spec.Host.ShowsLocal ⟨.allow, .allow, .allow⟩) none p := fun p => by simp [Tells, Verif.Spec.Host.ShowsLocal]
  constructor
  · intro x
    rw [host_gives, free, Props.Host.C37_host, Props.Ip.C28_parse]
    constructor
    · rintro ⟨⟨_, ⟨y, e, _⟩ | ⟨y, e, h, _⟩ | ⟨d, a, e, _⟩⟩, hp, hl, ht⟩
      · cases e
      · cases e; exact ⟨⟨h, hp, hl⟩, ht⟩
      · cases e
    · rintro ⟨⟨h, hp, hl⟩, ht⟩
      exact ⟨⟨trivial, .inr (.inl ⟨x, rfl, h, by simp, trivial, t _⟩)⟩, hp, hl, ht⟩
  · intro x
    rw [host_gives, free, Props.Host.C37_host, Props.Ip.C29_parse]
    constructor
    · rintro ⟨⟨_, ⟨y, e, h, _⟩ | ⟨y, e, _⟩ | ⟨d, a, e, _⟩⟩, hp, hl, ht⟩
      · cases e; exact ⟨⟨h, hp, hl⟩, ht⟩
      · cases e
      · cases e
    · rintro ⟨⟨h, hp, hl⟩, ht⟩
      exact ⟨⟨trivial, .inl ⟨x, rfl, h, by simp, trivial, t _⟩⟩, hp, hl, ht⟩

/-- C68: `host` accepts a text as a name exactly if `domain` with `ipv4(Disallow)` and the same other options does, the text before
the port has no final dot, and the text is no IPv6 address and does not begin with a bracket. -/
theorem C68_host_name (o : Host.Opts) (idna : Domain.Idna) (cs : List Char) (a : List UInt8) (p : Option Nat) :
    Gives (Host.parseStr o idna (strBytes cs)) hostCore (.domain a, p) ↔
      Gives (Domain.parseStr ⟨.disallow, o.loc, o.port, o.atl⟩ idna (strBytes cs)) domainCore (a, p) ∧
      (∀ d, HostPort (strBytes cs) d p → ¬ ∃ c, d = c ++ ascii ".") ∧ (∀ x : StdIp.V6, ¬ V6Text (strBytes cs) x.segs) ∧
      (strBytes cs).head? ≠ some (asc '[') := by
  have quad : ∀ (d : List UInt8), (¬ ∃ c, d = c ++ ascii ".") → ((∀ x : StdIp.V4, d ≠ x.text) ↔ ∀ x, ¬ QuadDot d x) := by
    intro d hd
    refine forall_congr' fun x => ?_
    constructor
    · rintro h (e | e)
      · exact h e
      · exact hd ⟨_, e⟩
    · intro h e; exact h (.inl e)
  rw [domain_gives]
  constructor
  · rintro ⟨v, hv, e⟩
    injection e with e1 e2
    subst e2
    rcases (Props.Host.C37_host _ _ _ _).1 hv with ⟨hp, ⟨x, e, _⟩ | ⟨x, e, _⟩ | ⟨d, a', e, h1, ⟨n1, n2, n3, n4, n5⟩, h3, h4, h5, _⟩⟩
    · rw [e] at e1; cases e1
    · rw [e] at e1; cases e1
    · rw [e] at e1
      cases e1
      refine ⟨⟨n1, d, h1, hp, .inr ⟨.inr ((quad d n4).1 n5), by simp, h3, h4, h5⟩⟩, ?_, n3, n2⟩
      intro d' h'
      obtain ⟨rfl, _⟩ := Domain.hostPort_unique _ _ _ _ _ h1 h'
      exact n4
  · rintro ⟨⟨n1, d, h1, hp, ⟨_, _, _, _, h, _⟩ | ⟨hq, _, h3, h4, h5⟩⟩, n4, n3, n2⟩
    · exact absurd rfl h
    · have n4 := n4 d h1
      have hq : ∀ x, ¬ QuadDot d x := hq.resolve_left (by simp [Plain])
      obtain ⟨l, t⟩ := Options.tells (Verif.Spec.Host.ShowsLocal o) (LocalName a)
      refine ⟨⟨.domain a, l, p⟩, ?_, rfl⟩
      rw [Props.Host.C37_host]
      exact ⟨hp, .inr (.inr ⟨d, a, rfl, h1, ⟨n1, n2, n3, n4, (quad d n4).2 hq⟩, h3, h4, h5, t⟩)⟩

example : Host.parseStr ⟨.allow, .must, .must⟩ Domain.ldh (ascii "Example.com:80") = .ok ⟨.domain (ascii "example.com"), some false, some 80⟩ ∧
    Domain.parseStr ⟨.disallow, .allow, .must, .must⟩ Domain.ldh (ascii "Example.com:80") = .ok ⟨ascii "example.com", none, some false, some 80⟩ ∧
    Host.parseStr ⟨.disallow, .allow, .must⟩ Domain.ldh (ascii "[2606:4700::1]") = .ok ⟨.ipv6 ⟨0x2606, 0x4700, 0, 0, 0, 0, 0, 1⟩, none, none⟩ := by
  decide +kernel

/-! ## `line` and `text` -/

/-- C68: what `line` accepts, `text` accepts with the same options. -/
theorem C68_line_text (b : Bool) (min trimmedMin max : Option Nat) (ho : Props.Line.InOrder min max) (s v : List Char)
    (h : Line.parseStr .line b min trimmedMin max s = .ok v) : Line.parseStr .text b min trimmedMin max s = .ok v := by
  have clean : ∀ t, Spec.Line.Clean .line t → Spec.Line.Clean .text t := by
    intro t ht c hc hf
    exact ht c hc ⟨hf.1, hf.2.1, by simp⟩
  cases trimmedMin with
  | none =>
    rw [Props.Line.C23_language _ _ _ _ _ _ ho] at h ⊢
    exact ⟨h.1, clean _ h.2.1, h.2.2⟩
  | some t =>
    rw [Props.Line.C24_language_partial _ _ _ _ _ _ _ ho] at h ⊢
    exact ⟨h.1, clean _ h.2.1, h.2.2⟩

example : Line.parseStr .line false (some 1) (some 1) (some 3) ['\t', 'a'] = .ok ['\t', 'a'] ∧
    Line.parseStr .text false (some 1) (some 1) (some 3) ['\n', 'a'] = .ok ['\n', 'a'] := by decide

/-! ## `url`, `http_url` and `http_ftp_url` -/

/-- C68: what `http_url` accepts, `http_ftp_url` accepts, and what `http_ftp_url` accepts, `url` accepts, with the same URL.
`parse` is `Url::parse`, `host` is `Url::host`. -/
theorem C68_url {ε U : Type} (parse : List UInt8 → Except ε U) (host : U → Option Host.Host) (loc : TriAllow) (s : List UInt8)
    (lib : Url.Lib U) (hl : lib = ⟨fun s => (parse s).toOption, host⟩) :
    (∀ u b, Url.parseHttpStr lib loc s = .ok (u, b) → Url.parseHttpFtpStr lib loc s = .ok (u, if b then .https else .http)) ∧
    (∀ u p, Url.parseHttpFtpStr lib loc s = .ok (u, p) → Wrapper.parseStr parse s = .ok u) := by
  rw [(Props.Url.C46_entry_points lib loc s).1, (Props.Url.C46_entry_points lib loc s).2.2.1]
  constructor
  · intro u b h
    have hf : ¬ Spec.Url.HasScheme (ascii "ftp") s := by
      intro hf
      rcases Url.parseHttp_eq lib loc s with ⟨_, k⟩ | ⟨_, k⟩ | ⟨e, _⟩
      · exact absurd (Url.scheme_unique .ftp .http s hf k) (by simp)
      · exact absurd (Url.scheme_unique .ftp .https s hf k) (by simp)
      · rw [e] at h; cases h
    rw [Props.Url.C46_agree lib loc s hf, h]
    rfl
  · intro u p h
    rcases Url.parseHttpFtp_eq lib loc s with ⟨q, e, _⟩ | ⟨e, _⟩
    · rw [e] at h
      unfold Url.rest at h
      rw [hl] at h
      unfold Wrapper.parseStr Wrapper.vParse
      dsimp only at h
      cases hp : parse s with
      | error e => rw [hp] at h; cases h
      | ok w =>
        rw [hp] at h
        change ((Url.handleLocal ⟨fun s => (parse s).toOption, host⟩ loc w).bind fun _ => Out.ok (w, q)) = .ok (u, p) at h
        cases hh : Url.handleLocal ⟨fun s => (parse s).toOption, host⟩ loc w with
        | ok _ => rw [hh] at h; cases h; rfl
        | err _ => rw [hh] at h; cases h
        | panic => rw [hh] at h; cases h
    · rw [e] at h; cases h

example : ∃ (parse : List UInt8 → Except Unit Unit) (lib : Url.Lib Unit), lib = ⟨fun s => (parse s).toOption, fun _ => some (.domain (ascii "localhost"))⟩ ∧
    Url.parseHttpStr lib .must (ascii "http://localhost") = .ok ((), false) ∧
    Url.parseHttpFtpStr lib .must (ascii "http://localhost") = .ok ((), .http) :=
  ⟨fun s => if s = ascii "http://localhost" then .ok () else .error (), _, rfl, by decide, by decide⟩

end Verif.Props.Agree
