import Verif.Props.Host
import Verif.Props.Email
import Verif.Spec.HostText

/-!
# C78: the text of a `Host`

`Display` of the host in a value of a `host` or `email` validator: what a `host` validator reads from it, and that it tells hosts
apart.
-/

namespace Verif.Props.HostText

open Verif.Host Verif.Spec Verif.Spec.Ip Verif.Spec.Domain Verif.Spec.Host Verif.Spec.HostText Verif.StdIp
open BaseN (strBytes)
open Verif.Ip (Str)
open Verif.Domain (Idna ldh ldh_laws hostPort_join idna_chars join join_str)
open Verif.Props.Host

/-- The laws of the conversion are of use for names only. -/
theorem reads (o : Opts) (hp : o.port ≠ .must) (idna : Idna) (h : Host) (laws : ∀ a, h = .domain a → IdnaLaws idna) (hh : Readable idna h) (v : Value) :
    parseStr o idna h.display = .ok v ↔
      v.host = h ∧ v.port = none ∧ Admits o h ∧ Tells (ShowsLocal o) v.isLocal (LocalHost h) := by
  have hport : PortOk o.port none := by cases e : o.port <;> simp_all [PortOk]
  cases h with
  | ipv6 x =>
    have ht := showV6_text x
    have hin : V6Input (showV6 x) x none := .inl ht
    have hs := Ip.str_ascii _ (Ip.v6Text_ascii _ _ ht)
    have hl := v6Input_looks _ _ _ hin
    show parseStr o idna (showV6 x) = _ ↔ _
    constructor
    · intro e
      obtain ⟨q, k⟩ := (parseStr_ok o idna _ hs v).1 e
      rcases k with ⟨y, hy, hi, h1, h2, h3⟩ | ⟨y, _, hi, _⟩ | ⟨d, a, _, _, hd, _⟩
      · rcases (Ip.v6Input_iff _ y _).1 hi with ⟨hv, k⟩ | k
        · have e2 : y = x := by
            have e1 := (parseV6_iff _ _).2 k
            rw [(parseV6_iff _ _).2 ht] at e1
            exact (Option.some.inj e1).symm
          subst e2
          exact ⟨hy, hv, ⟨h2, h1⟩, h3⟩
        · exact absurd (Ip.bracketInput_head _ _ _ k) (Ip.v6Text_not_bracket _ _ ht)
      · exact absurd hl (v4Input_not_looks _ y _ hi)
      · exact absurd hl ((not_looks6 _).2 ⟨hd.2.1, hd.2.2.1⟩)
    · rintro ⟨h1, h2, ⟨h3, h4⟩, h5⟩
      rw [parseStr_ok o idna _ hs]
      exact ⟨h2 ▸ hport, .inl ⟨x, h1, h2 ▸ hin, h4, h3, h5⟩⟩
  | ipv4 x =>
    obtain ⟨hin, hs⟩ := Ip.uriV4_input x none (by simp)
    have hin : V4Input (showV4 x) x none := hin
    have hs : Str (showV4 x) := hs
    show parseStr o idna (showV4 x) = _ ↔ _
    constructor
    · intro e
      obtain ⟨q, k⟩ := (parseStr_ok o idna _ hs v).1 e
      rcases k with ⟨y, _, hi, _⟩ | ⟨y, hy, hi, h1, h2, h3⟩ | ⟨d, a, _, hq, hd, _⟩
      · exact absurd (v6Input_looks _ y _ hi) (v4Input_not_looks _ x _ hin)
      · obtain ⟨e1, hv⟩ := Domain.hostPort_unique _ _ _ _ _ ((v4_iff _ y _).1 hi) ((v4_iff _ x _).1 hin)
        have e2 := Ip.text_inj _ _ e1
        subst e2
        exact ⟨hy, hv, ⟨h2, h1⟩, h3⟩
      · obtain ⟨rfl, _⟩ := Domain.hostPort_unique _ _ _ _ _ ((v4_iff _ x _).1 hin) hq
        exact absurd rfl (hd.2.2.2.2 x)
    · rintro ⟨h1, h2, ⟨h3, h4⟩, h5⟩
      rw [parseStr_ok o idna _ hs]
      exact ⟨h2 ▸ hport, .inr (.inl ⟨x, h1, h2 ▸ hin, h4, h3, h5⟩)⟩
  | domain a =>
    replace laws := laws a rfl
    obtain ⟨⟨t, ht⟩, hd, h4⟩ := hh
    obtain ⟨c1, c3, c2⟩ := idna_chars idna laws _ _ ht
    have hne := laws.nonempty _ _ ht
    have hs := Ip.str_ascii _ c2
    have hj : HostPort a a none := hostPort_join a c1 none (by simp)
    have hx : ∀ x : V6, ¬ V6Text a x.segs := fun x hx => join_not_v6 a c1 none (by simp) _ hx
    have hb : a.head? ≠ some (asc '[') := by
      intro e
      cases a with
      | nil => exact hne rfl
      | cons b a =>
        simp only [List.head?_cons, Option.some.injEq] at e
        exact c3 (e ▸ List.mem_cons_self)
    show parseStr o idna a = _ ↔ _
    constructor
    · intro e
      obtain ⟨q, k⟩ := (parseStr_ok o idna _ hs v).1 e
      rcases k with ⟨y, _, hi, _⟩ | ⟨y, hy, hi, h1, h2, h3⟩ | ⟨d, b, hv, hq, hn, hi, h1, h2, h3⟩
      · exact absurd (v6Input_looks _ y _ hi) ((not_looks6 _).2 ⟨hb, hx⟩)
      · obtain ⟨e1, _⟩ := Domain.hostPort_unique _ _ _ _ _ ((v4_iff _ y _).1 hi) hj
        exact absurd e1.symm (h4 y)
      · obtain ⟨rfl, e2⟩ := Domain.hostPort_unique _ _ _ _ _ hq hj
        rw [laws.again _ _ ht] at hi
        cases hi
        exact ⟨hv, e2, ⟨h2, h1⟩, h3⟩
    · rintro ⟨h1, h2, ⟨h3, h5⟩, h6⟩
      rw [parseStr_ok o idna _ hs]
      exact ⟨h2 ▸ hport, .inr (.inr ⟨a, a, h1, h2 ▸ hj, ⟨hne, hb, hx, hd, h4⟩, laws.again _ _ ht, h5, h3, h6⟩)⟩

/-- The text of a readable host is accepted by a `host` validator without `port(Must)` exactly when its options admit the host, and
the value has this host and no port. -/
theorem C78_reads (o : Opts) (hp : o.port ≠ .must) (idna : Idna) (laws : IdnaLaws idna) (h : Host) (hh : Readable idna h) (v : Value) :
    parseStr o idna h.display = .ok v ↔
      v.host = h ∧ v.port = none ∧ Admits o h ∧ Tells (ShowsLocal o) v.isLocal (LocalHost h) :=
  reads o hp idna h (fun _ _ => laws) hh v

/-- C78: a `host` validator that allows everything reads every readable host from its text. -/
theorem C78_everything_partial (idna : Idna) (laws : IdnaLaws idna) (h : Host) (hr : Readable idna h) :
    parseStr ⟨.allow, .allow, .allow⟩ idna h.display = .ok ⟨h, none, none⟩ := by
  rw [C78_reads _ (by decide) idna laws _ hr]
  refine ⟨rfl, rfl, ⟨trivial, ?_⟩, fun hs => absurd rfl hs.2, fun _ => rfl⟩
  cases h with
  | domain a => trivial
  | ipv4 x => exact (by decide : TriAllow.allow ≠ .disallow)
  | ipv6 x => exact (by decide : TriAllow.allow ≠ .disallow)

/-- `Host::from` of an address is this address, no name, and a `host` validator without `port(Must)` reads its text as this host,
by whatever conversion of names, exactly when its options admit the address. -/
theorem C78_from (o : Opts) (hp : o.port ≠ .must) (idna : Idna) (v : Value) :
    (∀ x : V4, Host.ofV4 x = .ipv4 x ∧ (parseStr o idna (Host.ofV4 x).display = .ok v ↔ v.host = Host.ofV4 x ∧ v.port = none ∧
      LocalOk o.loc (Local4 x.number) ∧ o.atl ≠ .disallow ∧ Tells (ShowsLocal o) v.isLocal (Local4 x.number))) ∧
    ∀ x : V6, Host.ofV6 x = .ipv6 x ∧ (parseStr o idna (Host.ofV6 x).display = .ok v ↔ v.host = Host.ofV6 x ∧ v.port = none ∧
      LocalOk o.loc (Local6 x.number) ∧ o.atl ≠ .disallow ∧ Tells (ShowsLocal o) v.isLocal (Local6 x.number)) := by
  refine ⟨fun x => ⟨rfl, ?_⟩, fun x => ⟨rfl, ?_⟩⟩
  · rw [reads o hp idna (Host.ofV4 x) nofun trivial v]
    simp only [Admits, LocalHost, Host.ofV4, and_assoc]
  · rw [reads o hp idna (Host.ofV6 x) nofun trivial v]
    simp only [Admits, LocalHost, Host.ofV6, and_assoc]

/-- A name with a final dot is not read from its text. -/
theorem C78_dot (o : Opts) (idna : Idna) (laws : IdnaLaws idna) (a : List UInt8) (h : Known idna (.domain a)) (hd : ∃ c, a = c ++ ascii ".") (v : Value) :
    parseStr o idna (Host.domain a).display ≠ .ok v := by
  obtain ⟨t, ht⟩ := h
  obtain ⟨c1, c3, c2⟩ := idna_chars idna laws _ _ ht
  have hj : HostPort a a none := hostPort_join a c1 none (by simp)
  intro e
  obtain ⟨q, k⟩ := (parseStr_ok o idna _ (Ip.str_ascii _ c2) v).1 e
  rcases k with ⟨y, _, hi, _⟩ | ⟨y, hy, hi, h1, h2, h3⟩ | ⟨d, b, hv, hq, hn, hi, h1, h2, h3⟩
  · have hl := v6Input_looks _ y _ hi
    refine absurd hl ((not_looks6 _).2 ⟨?_, fun x hx => join_not_v6 a c1 none (by simp) _ hx⟩)
    intro e
    have e : a.head? = some (asc '[') := e
    cases a with
    | nil => simp at e
    | cons b a =>
      simp only [List.head?_cons, Option.some.injEq] at e
      exact c3 (e ▸ List.mem_cons_self)
  · obtain ⟨rfl, _⟩ := Domain.hostPort_unique _ _ _ _ _ ((v4_iff _ y _).1 hi) hj
    exact Domain.text_no_final_dot y ((Domain.getLast_dot _).2 hd)
  · obtain ⟨rfl, _⟩ := Domain.hostPort_unique _ _ _ _ _ hq hj
    exact hn.2.2.2.1 hd

/-- A name that is the text of an IPv4 address is read as this address. -/
theorem C78_quad (x : V4) : (Host.domain x.text).display = (Host.ipv4 x).display := (showV4_eq x).symm

/-- The hosts that are printed alike: equal ones, and a name with the address that it looks like. -/
theorem C78_alike (idna : Idna) (laws : IdnaLaws idna) (h k : Host) (hh : Known idna h) (hk : Known idna k) :
    h.display = k.display ↔
      h = k ∨ ∃ x : V4, (h = .domain x.text ∧ k = .ipv4 x) ∨ (h = .ipv4 x ∧ k = .domain x.text) := by
  have no6 : ∀ a (x : V6), Known idna (.domain a) → a ≠ showV6 x := by
    rintro a x ⟨t, ht⟩ e
    obtain ⟨c1, _, _⟩ := idna_chars idna laws _ _ ht
    have := v6Text_count _ _ (showV6_text x)
    rw [← e, List.count_eq_zero_of_not_mem c1] at this
    omega
  have no46 : ∀ (x : V4) (y : V6), showV4 x ≠ showV6 y := by
    intro x y e
    have := v6Text_count _ _ (showV6_text y)
    rw [← e, showV4_eq, List.count_eq_zero_of_not_mem (Ip.text_no_colon x)] at this
    omega
  constructor
  · intro e
    cases h with
    | domain a => cases k with
      | domain b => exact .inl (congrArg _ e)
      | ipv4 x => exact .inr ⟨x, .inl ⟨congrArg _ ((show a = showV4 x from e).trans (showV4_eq x)), rfl⟩⟩
      | ipv6 x => exact absurd e (no6 a x hh)
    | ipv4 x => cases k with
      | domain b => exact .inr ⟨x, .inr ⟨rfl, congrArg _ ((show showV4 x = b from e).symm.trans (showV4_eq x))⟩⟩
      | ipv4 y =>
        have e : showV4 x = showV4 y := e
        rw [showV4_eq, showV4_eq] at e
        exact .inl (congrArg _ (Ip.text_inj _ _ e))
      | ipv6 y => exact absurd e (no46 x y)
    | ipv6 x => cases k with
      | domain b => exact absurd e.symm (no6 b x hk)
      | ipv4 y => exact absurd e.symm (no46 y x)
      | ipv6 y =>
        have e : showV6 x = showV6 y := e
        have h1 := (parseV6_iff _ _).2 (showV6_text x)
        rw [e, (parseV6_iff _ _).2 (showV6_text y)] at h1
        exact .inl (congrArg _ (Option.some.inj h1).symm)
  · rintro (rfl | ⟨x, ⟨rfl, rfl⟩ | ⟨rfl, rfl⟩⟩)
    · rfl
    · exact C78_quad x
    · exact (C78_quad x).symm

/-- The hosts of accepted addresses and hosts are known. -/
theorem C78_known (idna : Idna) (cs : List Char) :
    (∀ o v, parseStr o idna (strBytes cs) = .ok v → Known idna v.host) ∧
      ∀ o v, Email.parseStr o idna (strBytes cs) = .ok v → Known idna v.host := by
  constructor
  · intro o v h
    obtain ⟨_, ⟨x, hx, _⟩ | ⟨x, hx, _⟩ | ⟨d, a, hx, _, _, hi, _⟩⟩ := (C37_host o idna cs v).1 h
    · rw [hx]; trivial
    · rw [hx]; trivial
    · rw [hx]; exact ⟨d, hi⟩
  · intro o v h
    obtain ⟨q, t, d, tail, hd⟩ := (Email.C62_email o idna cs v).1 h
    have := hd.domainText.host
    cases hh : v.host with
    | domain a =>
      rw [hh] at this
      cases this with
      | domain _ _ _ _ hi => exact ⟨_, hi⟩
    | _ => trivial

/-- A known host is readable when it is not a name with a final dot or the text of an IPv4 address. -/
theorem readable_of_known (idna : Idna) (h : Host) (hk : Known idna h)
    (hn : ∀ a, h = .domain a → (¬ ∃ c, a = c ++ ascii ".") ∧ ∀ x : V4, a ≠ x.text) : Readable idna h := by
  cases h with
  | domain a => exact ⟨hk, hn a rfl⟩
  | _ => trivial

/-- C78 for `host`: the text of the host of an accepted value gives the value back, without its port. Missing: names with a final
dot and names that are the text of an IPv4 address. -/
theorem C78_host_partial (o : Opts) (hp : o.port ≠ .must) (idna : Idna) (laws : IdnaLaws idna) (cs : List Char) (v : Value)
    (h : parseStr o idna (strBytes cs) = .ok v)
    (hn : ∀ a, v.host = .domain a → (¬ ∃ c, a = c ++ ascii ".") ∧ ∀ x : V4, a ≠ x.text) :
    parseStr o idna v.host.display = .ok { v with port := none } := by
  rw [C78_reads o hp idna laws _ (readable_of_known idna _ ((C78_known idna cs).1 o v h) hn)]
  refine ⟨rfl, rfl, ?_⟩
  obtain ⟨_, ⟨x, hx, _, h1, h2, h3⟩ | ⟨x, hx, _, h1, h2, h3⟩ | ⟨d, a, hx, _, _, _, h1, h2, h3⟩⟩ := (C37_host o idna cs v).1 h
  all_goals
    rw [hx]
    exact ⟨⟨h2, h1⟩, h3⟩

/-- C78 for `email`: the text of the host of an accepted address is read as this host by a `host` validator with the same options
for local hosts and labels. Missing: as above. -/
theorem C78_email_partial (o : Email.Opts) (idna : Idna) (laws : IdnaLaws idna) (cs : List Char) (v : Email.Value)
    (h : Email.parseStr o idna (strBytes cs) = .ok v)
    (hn : ∀ a, v.host = .domain a → (¬ ∃ c, a = c ++ ascii ".") ∧ ∀ x : V4, a ≠ x.text) (port : TriAllow) (hp : port ≠ .must) :
    parseStr ⟨o.loc, port, o.atl⟩ idna v.host.display = .ok ⟨v.host, v.isLocal, none⟩ := by
  rw [C78_reads _ hp idna laws _ (readable_of_known idna _ ((C78_known idna cs).2 o v h) hn)]
  obtain ⟨q, t, d, tail, hd⟩ := (Email.C62_email o idna cs v).1 h
  refine ⟨rfl, rfl, ?_, hd.isLocal⟩
  have := hd.domainText.ok
  cases hh : v.host with
  | domain a => rw [hh] at this; exact ⟨this.2.2, this.2.1⟩
  | ipv4 x => rw [hh] at this; exact ⟨this.2.2, this.2.1⟩
  | ipv6 x => rw [hh] at this; exact ⟨this.2.2, this.2.1⟩

/-- A host that is read back from its text is not a name with a final dot, nor one that is the text of an IPv4 address. -/
theorem read_back (o : Opts) (hp : o.port ≠ .must) (idna : Idna) (laws : IdnaLaws idna) (h : Host) (hk : Known idna h) (v : Value) (hv : v.host = h)
    (hb : parseStr o idna h.display = .ok v) (a : List UInt8) (ha : h = .domain a) : (¬ ∃ c, a = c ++ ascii ".") ∧ ∀ x : V4, a ≠ x.text := by
  subst ha
  refine ⟨fun hd => C78_dot o idna laws a hk hd v hb, ?_⟩
  rintro x rfl
  rw [C78_quad, reads o hp idna (.ipv4 x) nofun trivial, hv] at hb
  cases hb.1

/-- C78 exactly: the text of the host of an accepted value gives the value back, without its port, unless the host is a name with a
final dot or one that is the text of an IPv4 address. -/
theorem C78_host_exact_partial (o : Opts) (hp : o.port ≠ .must) (idna : Idna) (laws : IdnaLaws idna) (cs : List Char) (v : Value)
    (h : parseStr o idna (strBytes cs) = .ok v) :
    parseStr o idna v.host.display = .ok { v with port := none } ↔
      ∀ a, v.host = .domain a → (¬ ∃ c, a = c ++ ascii ".") ∧ ∀ x : V4, a ≠ x.text :=
  ⟨fun hb => read_back o hp idna laws _ ((C78_known idna cs).1 o v h) { v with port := none } rfl hb, C78_host_partial o hp idna laws cs v h⟩

/-- The same for an accepted address. -/
theorem C78_email_exact_partial (o : Email.Opts) (idna : Idna) (laws : IdnaLaws idna) (cs : List Char) (v : Email.Value)
    (h : Email.parseStr o idna (strBytes cs) = .ok v) (port : TriAllow) (hp : port ≠ .must) :
    parseStr ⟨o.loc, port, o.atl⟩ idna v.host.display = .ok ⟨v.host, v.isLocal, none⟩ ↔
      ∀ a, v.host = .domain a → (¬ ∃ c, a = c ++ ascii ".") ∧ ∀ x : V4, a ≠ x.text :=
  ⟨fun hb => read_back _ hp idna laws _ ((C78_known idna cs).2 o v h) ⟨v.host, v.isLocal, none⟩ rfl hb,
    fun hn => C78_email_partial o idna laws cs v h hn port hp⟩

/-- C78 is false: the validator of emails returns two hosts that are printed alike, one a name and one an address, -/
theorem C78_violated_alike : ∃ (o : Email.Opts) (cs ds : List Char) (v w : Email.Value),
    Email.parseStr o ldh (strBytes cs) = .ok v ∧ Email.parseStr o ldh (strBytes ds) = .ok w ∧ v.host ≠ w.host ∧ v.host.display = w.host.display :=
  ⟨Email.free, "a@127.0.0.1".toList, "a@[127.0.0.1]".toList, ⟨ascii "a", false, .domain (ascii "127.0.0.1"), none, none, none, none, none⟩,
    ⟨ascii "a", false, .ipv4 ⟨127, 0, 0, 1⟩, none, none, none, none, none⟩, by decide +kernel⟩

/-- and a name with a final dot, that a validator returns if the conversion maps the ideographic full stop to a dot, as UTS 46
does, is refused. -/
theorem C78_violated_dot (idna : Idna) (h : idna (strBytes "example.com。".toList) = some (ascii "example.com.")) :
    ∃ o v, parseStr o idna (strBytes "example.com。".toList) = .ok v ∧ parseStr o idna v.host.display = .err .invalid := by
  obtain ⟨o, v, h1, h2, h3, h4⟩ := C38_violated idna h
  exact ⟨o, v, h1, by rw [h2]; rw [h3] at h4; exact h4⟩

/-! ## Cases -/

/-- The hypotheses are met: a conversion that obeys the laws, and hosts of every kind. -/
example : IdnaLaws ldh ∧ Readable ldh (.domain (ascii "example.com")) ∧ Readable ldh (.ipv4 ⟨127, 0, 0, 1⟩) ∧
    ¬ Readable ldh (.domain (ascii "127.0.0.1")) ∧ Known ldh (.domain (ascii "127.0.0.1")) := by
  refine ⟨ldh_laws, ⟨⟨ascii "example.com", by decide +kernel⟩, ?_, ?_⟩, trivial, ?_, ⟨ascii "127.0.0.1", by decide +kernel⟩⟩
  · rw [← Domain.getLast_dot]; decide +kernel
  · intro x hx
    have hx := (parseV4_iff _ x).2 hx
    exact absurd (hx.symm.trans (show _ = none by decide +kernel)) (by simp)
  · rintro ⟨_, _, h⟩
    exact h ⟨127, 0, 0, 1⟩ (by decide +kernel)

example : (Host.ipv6 ⟨0x2001, 0xdb8, 0, 0, 0, 0, 0, 1⟩).display = ascii "2001:db8::1" ∧ (Host.ipv4 ⟨127, 0, 0, 1⟩).display = ascii "127.0.0.1" ∧
    (Host.domain (ascii "example.com")).display = ascii "example.com" := by decide +kernel

example : parseStr ⟨.allow, .allow, .must⟩ ldh (ascii "[2001:db8::1]:80") = .ok ⟨.ipv6 ⟨0x2001, 0xdb8, 0, 0, 0, 0, 0, 1⟩, some true, some 80⟩ ∧
    parseStr ⟨.allow, .allow, .must⟩ ldh (ascii "2001:db8::1") = .ok ⟨.ipv6 ⟨0x2001, 0xdb8, 0, 0, 0, 0, 0, 1⟩, some true, none⟩ := by decide +kernel

/-- The options decide: -/
example : parseStr ⟨.disallow, .allow, .allow⟩ ldh (Host.ipv4 ⟨127, 0, 0, 1⟩).display = .err .localDisallow ∧
    parseStr ⟨.allow, .must, .allow⟩ ldh (Host.ipv4 ⟨127, 0, 0, 1⟩).display = .err .portMust ∧
    parseStr ⟨.allow, .allow, .disallow⟩ ldh (Host.ipv4 ⟨127, 0, 0, 1⟩).display = .err .atLeastTwoLabelsDisallow := by decide +kernel

end Verif.Props.HostText
