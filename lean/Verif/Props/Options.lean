import Verif.Spec.Options
import Verif.Props.BaseN
import Verif.Props.Hex
import Verif.Props.Range
import Verif.Props.Ip
import Verif.Props.Domain
import Verif.Props.Host
import Verif.Props.Email
import Verif.Props.Url

/-!
# C66: `Must`, `Allow` and `Disallow`
-/

namespace Verif.Props.Options

open Verif.Spec Verif.Spec.Options Verif.Spec.Ip
open Verif.BaseN (strBytes)

theorem gives_id {ε α : Type} (r : Out ε α) (x : α) : Gives r id x ↔ r = .ok x := by
  unfold Gives; simp

/-! ## Padding -/

open Verif.Props.BaseN (Kind PaddingAtEnd)
open Verif.Spec.BaseN (padByte)

/-- C66, `padding` of the base-N validators. -/
theorem C66_padding (K : Kind) (v : List UInt8) : Covers (fun p => BaseN.parseU8Slice K.variant p v) id := by
  intro w
  simp only [gives_id]
  have same : ∀ p, BaseN.parseU8Slice K.variant p v = .ok w ↔ w = v ∧ Spec.BaseN.Accepts K.spec p v := by
    intro p
    have h := Props.BaseN.C01_parse_u8_slice_language K p v
    have h' := (Props.BaseN.C03_entry_points_agree K p)
    constructor
    · intro e
      refine ⟨?_, h.1 ⟨w, e⟩⟩
      unfold BaseN.parseU8Slice at e
      cases hc : BaseN.check K.variant p v <;> simp [hc] at e
      exact e.symm
    · rintro ⟨rfl, ha⟩
      obtain ⟨u, hu⟩ := h.2 ha
      unfold BaseN.parseU8Slice at hu ⊢
      cases hc : BaseN.check K.variant p w <;> simp [hc] at hu ⊢
  simp only [same, ← and_or_left]
  refine and_congr_right fun _ => ?_
  unfold Spec.BaseN.Accepts
  constructor
  · rintro ⟨hne, body, k, hv, hb, ⟨rfl, _⟩ | ⟨h1, h2, _, h3, h4⟩⟩
    · exact .inr ⟨hne, body, 0, hv, hb, .inl ⟨rfl, by simp⟩⟩
    · exact .inl ⟨hne, body, k, hv, hb, .inr ⟨h1, h2, by simp, h3, h4⟩⟩
  · rintro (⟨hne, body, k, hv, hb, ⟨rfl, _⟩ | ⟨h1, h2, _, h3, h4⟩⟩ | ⟨hne, body, k, hv, hb, ⟨rfl, _⟩ | ⟨h1, h2, h, _⟩⟩)
    · exact ⟨hne, body, 0, hv, hb, .inl ⟨rfl, by simp⟩⟩
    · exact ⟨hne, body, k, hv, hb, .inr ⟨h1, h2, by simp, h3, h4⟩⟩
    · exact ⟨hne, body, 0, hv, hb, .inl ⟨rfl, by simp⟩⟩
    · exact absurd rfl h

/-- C66: a text that both `padding(Must)` and `padding(Disallow)` accept consists of whole blocks of symbols, so it needs no
padding. -/
theorem C66_padding_both (K : Kind) (v : List UInt8) :
    (BaseN.parseU8Slice K.variant .must v).IsOk ∧ (BaseN.parseU8Slice K.variant .disallow v).IsOk ↔
      v ≠ [] ∧ (∀ b ∈ v, b ∈ K.spec.alphabet) ∧ v.length % K.spec.block = 0 := by
  rw [Props.BaseN.C01_parse_u8_slice_language, Props.BaseN.C01_parse_u8_slice_language]
  constructor
  · rintro ⟨⟨hne, _, _, _, _, hm⟩, _, body, k, hv, hb, ⟨rfl, _⟩ | ⟨_, _, h, _⟩⟩
    · simp at hv
      subst hv
      refine ⟨hne, hb, ?_⟩
      rcases hm with ⟨_, h⟩ | ⟨_, _, _, h, _⟩
      · exact h rfl
      · exact h
    · exact absurd rfl h
  · rintro ⟨hne, hb, hl⟩
    exact ⟨⟨hne, v, 0, by simp, hb, .inl ⟨rfl, fun _ => hl⟩⟩, hne, v, 0, by simp, hb, .inl ⟨rfl, by simp⟩⟩

/-- C66 for the decoding validators, for texts whose `=` all stand at the end. Missing: other texts, for which it is false,
see `C66_decoded_violated`. -/
theorem C66_decoded_partial (K : Kind) (v : List UInt8) (hv : PaddingAtEnd v) :
    Covers (fun p => BaseN.decodedParse K.encoding p v) id := by
  intro d
  simp only [gives_id]
  have canon := fun p h => Props.BaseN.C06_canonical_partial K p v d hv h
  constructor
  · intro h
    obtain ⟨hd, e⟩ := canon .allow h
    obtain ⟨c1, _, c3, _⟩ := Props.BaseN.C05_decode_encode K d hd
    split at e
    · exact .inl (by rw [e]; exact c1)
    · exact .inr (by rw [e]; exact c3)
  · rintro (h | h)
    · obtain ⟨hd, e⟩ := canon .must h
      obtain ⟨_, c2, _, _⟩ := Props.BaseN.C05_decode_encode K d hd
      simp at e
      rw [e]; exact c2
    · obtain ⟨hd, e⟩ := canon .disallow h
      obtain ⟨_, _, _, c4⟩ := Props.BaseN.C05_decode_encode K d hd
      simp at e
      rw [e]; exact c4

/-- C66 fails for the decoding validators: `padding(Must)` accepts a text that `padding(Allow)` refuses. -/
theorem C66_decoded_violated :
    BaseN.decodedParse Kind.base64.encoding .must (ascii "QQ==QUJD") = .ok (ascii "AABC") ∧
    BaseN.decodedParse Kind.base64.encoding .allow (ascii "QQ==QUJD") = .err .decode := by decide +kernel

example : PaddingAtEnd (ascii "QUJD") ∧ BaseN.decodedParse Kind.base64.encoding .must (ascii "QUJD") = .ok (ascii "ABC") := by
  refine ⟨?_, by decide +kernel⟩
  intro a b h x hx
  rcases a with _ | ⟨_, _ | ⟨_, _ | ⟨_, _ | ⟨_, a⟩⟩⟩⟩ <;> simp [ascii, asc, padByte] at h

/-! ## Separators and case -/

open Verif.Spec.Hex (Grouped Between Denotes symbols)

theorem grouped_mono (a b : SeparatorOption) (h : ∀ s, Between a s → Between b s) (sizes : List Nat) (ds t : List UInt8) :
    Grouped a sizes ds t → Grouped b sizes ds t := by
  induction sizes generalizing ds t with
  | nil => exact id
  | cons n ns ih =>
    cases ns with
    | nil => exact id
    | cons m ns =>
      rintro ⟨g, ds', s, t', h1, h2, h3, h4, h5⟩
      exact ⟨g, ds', s, t', h1, h2, h3, h s h4, ih _ _ h5⟩

theorem symbols_any (case : CaseOption) : ∀ b ∈ symbols case, b ∈ symbols .any := by
  cases case <;> decide

theorem denotes_mono (a b : SeparatorOption) (c d : CaseOption) (h : ∀ s, Between a s → Between b s) (hc : ∀ x ∈ symbols c, x ∈ symbols d)
    (sizes : List Nat) (t : List UInt8) (n : Nat) : Denotes a c sizes t n → Denotes b d sizes t n := by
  rintro ⟨ds, h1, h2, h3⟩
  exact ⟨ds, grouped_mono a b h sizes ds t h1, fun x hx => hc x (h2 x hx), h3⟩

theorem grouped_length (sep : SeparatorOption) (k : Nat) (hk : ∀ s, Between sep s → s.length = k) (n : Nat) (ns : List Nat) (ds t : List UInt8)
    (h : Grouped sep (n :: ns) ds t) : t.length = ds.length + k * ns.length := by
  induction ns generalizing n ds t with
  | nil => obtain ⟨_, rfl⟩ := h; simp
  | cons m ns ih =>
    obtain ⟨g, ds', s, t', h1, rfl, rfl, h4, h5⟩ := h
    have := ih m ds' t' h5
    have := hk s h4
    simp only [List.length_append, List.length_cons, Nat.mul_succ] at *
    omega

/-- C66, `separator` of `uuid` and `mac_address`: what `Must(c)` or `Disallow` accepts, `Allow(c)` accepts with the same value, if
`c` is not itself a digit; `Must(c)` and `Disallow` accept no text in common. (`Allow(c)` accepts besides texts with some of the
separators.) -/
theorem C66_separator (c : UInt8) (case : CaseOption) (hc : c ∉ symbols case) (v : List UInt8) :
    (∀ n, Uuid.parseStr (.must c) case v = .ok n ∨ Uuid.parseStr .disallow case v = .ok n → Uuid.parseStr (.allow c) case v = .ok n) ∧
    ¬ ((Uuid.parseStr (.must c) case v).IsOk ∧ (Uuid.parseStr .disallow case v).IsOk) ∧
    (∀ n, Mac.parseStr (.must c) case v = .ok n ∨ Mac.parseStr .disallow case v = .ok n → Mac.parseStr (.allow c) case v = .ok n) ∧
    ¬ ((Mac.parseStr (.must c) case v).IsOk ∧ (Mac.parseStr .disallow case v).IsOk) := by
  have ha : ∀ s, SeparatorOption.allow c = .allow s → s ∉ symbols case := by rintro s h; cases h; exact hc
  have hm : ∀ s, SeparatorOption.must c = .allow s → s ∉ symbols case := by rintro s ⟨⟩
  have hd : ∀ s, SeparatorOption.disallow = .allow s → s ∉ symbols case := by rintro s ⟨⟩
  have b1 : ∀ s, Between (.must c) s → Between (.allow c) s := fun s h => .inr h
  have b2 : ∀ s, Between .disallow s → Between (.allow c) s := fun s h => .inl h
  have k1 : ∀ s, Between (.must c) s → s.length = 1 := by rintro s rfl; rfl
  have k2 : ∀ s, Between .disallow s → s.length = 0 := by rintro s rfl; rfl
  refine ⟨?_, ?_, ?_, ?_⟩
  · intro n
    rw [Props.Hex.C08_uuid_language _ _ hm, Props.Hex.C08_uuid_language _ _ hd, Props.Hex.C08_uuid_language _ _ ha]
    rintro (h | h)
    · exact denotes_mono _ _ _ _ b1 (fun _ h => h) _ _ _ h
    · exact denotes_mono _ _ _ _ b2 (fun _ h => h) _ _ _ h
  · rintro ⟨⟨n, h⟩, m, h'⟩
    obtain ⟨ds, g, _⟩ := Props.Hex.C08_uuid_sound _ _ _ _ h
    obtain ⟨ds', g', _⟩ := Props.Hex.C08_uuid_sound _ _ _ _ h'
    have e := grouped_length _ 1 k1 8 [4, 4, 4, 12] ds v g
    have e' := grouped_length _ 0 k2 8 [4, 4, 4, 12] ds' v g'
    have l := Hex.grouped_ds_length _ _ _ _ g
    have l' := Hex.grouped_ds_length _ _ _ _ g'
    simp at e e'
    omega
  · intro n
    rw [Props.Hex.C11_mac_language _ _ hm, Props.Hex.C11_mac_language _ _ hd, Props.Hex.C11_mac_language _ _ ha]
    rintro (h | h)
    · exact denotes_mono _ _ _ _ b1 (fun _ h => h) _ _ _ h
    · exact denotes_mono _ _ _ _ b2 (fun _ h => h) _ _ _ h
  · rintro ⟨⟨n, h⟩, m, h'⟩
    obtain ⟨ds, g, _⟩ := Props.Hex.C11_mac_sound _ _ _ _ h
    obtain ⟨ds', g', _⟩ := Props.Hex.C11_mac_sound _ _ _ _ h'
    have e := grouped_length _ 1 k1 2 [2, 2, 2, 2, 2] ds v g
    have e' := grouped_length _ 0 k2 2 [2, 2, 2, 2, 2] ds' v g'
    have l := Hex.grouped_ds_length _ _ _ _ g
    have l' := Hex.grouped_ds_length _ _ _ _ g'
    simp at e e'
    omega

/-- C66, `case`: what `Upper` or `Lower` accepts, `Any` accepts with the same value. -/
theorem C66_case (sep : SeparatorOption) (hs : ∀ c, sep = .allow c → c ∉ symbols .any) (case : CaseOption) (v : List UInt8) (n : Nat) :
    (Uuid.parseStr sep case v = .ok n → Uuid.parseStr sep .any v = .ok n) ∧
    (Mac.parseStr sep case v = .ok n → Mac.parseStr sep .any v = .ok n) := by
  constructor
  · intro h
    exact (Props.Hex.C08_uuid_language _ _ hs v n).2 (denotes_mono _ _ _ _ (fun _ h => h) (symbols_any case) _ _ _ (Props.Hex.C08_uuid_sound _ _ _ _ h))
  · intro h
    exact (Props.Hex.C11_mac_language _ _ hs v n).2 (denotes_mono _ _ _ _ (fun _ h => h) (symbols_any case) _ _ _ (Props.Hex.C11_mac_sound _ _ _ _ h))

example : asc ':' ∉ symbols .any ∧ Mac.parseStr (.must (asc ':')) .upper (ascii "08:00:27:B2:46:C3") = .ok 0x080027B246C3 ∧
    Mac.parseStr .disallow .upper (ascii "080027B246C3") = .ok 0x080027B246C3 ∧
    Mac.parseStr (.allow (asc ':')) .any (ascii "08:0027:B246C3") = .ok 0x080027B246C3 := by decide +kernel

/-! ## NaN -/

/-- C66, `nan` of `number`. -/
theorem C66_nan {α : Type} [LinearOrder α] (r : Range.RangeOption α) (chk : Number.Fl α → Out Range.RangeError Unit)
    (h : Number.check (Props.Range.floats r) = some chk) (f : Number.Fl α) : Splits (fun o => Number.parseF chk o f) id := by
  constructor
  · intro g
    simp only [gives_id]
    cases f with
    | none =>
      have k : ∀ o g, Number.parseF chk o none = .ok g → g = none := fun o g hg => (Props.Range.C20_nan_policy r o chk h none g hg).1
      have a := (Props.Range.C20_nan r .allow chk h).1.2 (by simp)
      have m := (Props.Range.C20_nan r .must chk h).1.2 (by simp)
      constructor
      · intro e; cases k _ _ e; exact .inl m
      · rintro (e | e) <;> (cases k _ _ e; exact a)
    | some x =>
      simp only [Props.Range.C20_number r _ chk h]
      simp
  · rintro ⟨⟨g, hg⟩, g', hg'⟩
    have e := Props.Range.C20_nan_policy r .must chk h f g hg
    have e' := Props.Range.C20_nan_policy r .disallow chk h f g' hg'
    exact e'.2.1 rfl (e'.1.trans (e.1.symm.trans (e.2.2 rfl)))

/-! ## Two general arguments -/

theorem splits_local {ε α β : Type} {f : TriAllow → Out ε α} {core : α → β} {A L : β → Prop}
    (h : ∀ o x, Gives (f o) core x ↔ A x ∧ LocalOk o (L x)) : Splits f core := by
  constructor
  · intro x
    simp only [h, LocalOk]
    by_cases hl : L x <;> simp [hl]
  · rintro ⟨⟨v, hv⟩, w, hw⟩
    have h1 := (h .must (core v)).1 ⟨v, hv, rfl⟩
    have h2 := (h .disallow (core w)).1 ⟨w, hw, rfl⟩
    obtain ⟨v', e1, k1⟩ := (h .allow (core v)).2 ⟨h1.1, trivial⟩
    obtain ⟨w', e2, k2⟩ := (h .allow (core w)).2 ⟨h2.1, trivial⟩
    rw [e1] at e2
    cases e2
    exact h2.2 (k2 ▸ k1 ▸ h1.2)

theorem portOk_iff (o : TriAllow) (p : Option Nat) : PortOk o p ↔ LocalOk o (p ≠ none) := by
  cases o <;> simp [PortOk, LocalOk]

/-! ## `local` and `port` of the IP validators -/

/-- C66, `local` and `port` of `ipv4`, `ipv6` and `ip`. -/
theorem C66_ip (loc port : TriAllow) (cs : List Char) :
    Splits (fun o => Ip.parseStr Ip.parseIpv4 o port (strBytes cs)) id ∧ Splits (fun o => Ip.parseStr Ip.parseIpv4 loc o (strBytes cs)) id ∧
    Splits (fun o => Ip.parseStr Ip.parseIpv6 o port (strBytes cs)) id ∧ Splits (fun o => Ip.parseStr Ip.parseIpv6 loc o (strBytes cs)) id ∧
    Splits (fun o => Ip.parseStr Ip.parseIp o port (strBytes cs)) id ∧ Splits (fun o => Ip.parseStr Ip.parseIp loc o (strBytes cs)) id := by
  refine ⟨?_, ?_, ?_, ?_, ?_, ?_⟩
  · refine splits_local (A := fun x => V4Input (strBytes cs) x.1 x.2 ∧ PortOk port x.2) (L := fun x => Local4 x.1.number) fun o x => ?_
    rw [gives_id, Props.Ip.C28_parse, and_assoc]
  · refine splits_local (A := fun x => V4Input (strBytes cs) x.1 x.2 ∧ LocalOk loc (Local4 x.1.number)) (L := fun x => x.2 ≠ none) fun o x => ?_
    rw [gives_id, Props.Ip.C28_parse, portOk_iff]; tauto
  · refine splits_local (A := fun x => V6Input (strBytes cs) x.1 x.2 ∧ PortOk port x.2) (L := fun x => Local6 x.1.number) fun o x => ?_
    rw [gives_id, Props.Ip.C29_parse, and_assoc]
  · refine splits_local (A := fun x => V6Input (strBytes cs) x.1 x.2 ∧ LocalOk loc (Local6 x.1.number)) (L := fun x => x.2 ≠ none) fun o x => ?_
    rw [gives_id, Props.Ip.C29_parse, portOk_iff]; tauto
  · refine splits_local (A := fun x => IpInput (strBytes cs) x.1 x.2 ∧ PortOk port x.2) (L := fun x => LocalIp x.1) fun o x => ?_
    rw [gives_id, Props.Ip.C30_parse, and_assoc]
  · refine splits_local (A := fun x => IpInput (strBytes cs) x.1 x.2 ∧ LocalOk loc (LocalIp x.1)) (L := fun x => x.2 ≠ none) fun o x => ?_
    rw [gives_id, Props.Ip.C30_parse, portOk_iff]; tauto

example : strBytes "10.0.0.1:80".toList = ascii "10.0.0.1:80" ∧
    Ip.parseStr Ip.parseIp .must .must (ascii "10.0.0.1:80") = .ok (.v4 ⟨10, 0, 0, 1⟩, some 80) ∧
    Ip.parseStr Ip.parseIp .allow .allow (ascii "10.0.0.1:80") = .ok (.v4 ⟨10, 0, 0, 1⟩, some 80) := by decide +kernel

/-! ## `domain` -/

open Verif.Spec.Domain (LocalName ManyLabels HostPort QuadDot LabelsOk Tells Plain)

theorem tells (shown p : Prop) : ∃ f, Tells shown f p := by
  by_cases hs : shown
  · by_cases hp : p
    · exact ⟨some true, by simp [Tells, hs, hp]⟩
    · exact ⟨some false, by simp [Tells, hs, hp]⟩
  · exact ⟨none, by simp [Tells, hs]⟩

/-- What does not depend on `ipv4`, `local` and `at_least_two_labels`: the domain and the port. -/
def domainCore (v : Domain.Value) : List UInt8 × Option Nat := (v.domain, v.port)

theorem domain_gives (o : Domain.Opts) (idna : Domain.Idna) (cs : List Char) (a : List UInt8) (p : Option Nat) :
    Gives (Domain.parseStr o idna (strBytes cs)) domainCore (a, p) ↔
      strBytes cs ≠ [] ∧ ∃ d, HostPort (strBytes cs) d p ∧ PortOk o.port p ∧
        (a = strBytes cs ∧ (∃ x, ¬ Plain o ∧ QuadDot d x ∧ o.ipv4 ≠ .disallow ∧ o.atl ≠ .disallow ∧ LocalOk o.loc (Local4 x.number)) ∨
          (Plain o ∨ ∀ x, ¬ QuadDot d x) ∧ o.ipv4 ≠ .must ∧ idna d = some a ∧ LabelsOk o.atl (LocalName a) (ManyLabels a) ∧
            LocalOk o.loc (LocalName a)) := by
  constructor
  · rintro ⟨v, hv, e⟩
    cases e
    rw [Props.Domain.C58_domain] at hv
    obtain ⟨h1, d, h2, h3, h⟩ := hv
    refine ⟨h1, d, h2, h3, ?_⟩
    rcases h with ⟨h4, x, g1, g2, g3, g4, g5, _⟩ | ⟨g1, g2, g3, g4, g5, _⟩
    · exact .inl ⟨h4, x, g1, g2, g3, g4, g5⟩
    · exact .inr ⟨g1, g2, g3, g4, g5⟩
  · rintro ⟨h1, d, h2, h3, ⟨h4, x, g1, g2, g3, g4, g5⟩ | ⟨g1, g2, g3, g4, g5⟩⟩
    · obtain ⟨i, hi⟩ := tells (o.ipv4 = .allow ∧ o.loc = .allow ∧ o.atl ≠ .allow) True
      obtain ⟨l, hl⟩ := tells (o.loc = .allow ∧ o.atl ≠ .allow) (Local4 x.number)
      refine ⟨⟨a, i, l, p⟩, ?_, rfl⟩
      rw [Props.Domain.C58_domain]
      exact ⟨h1, d, h2, h3, .inl ⟨h4, x, g1, g2, g3, g4, g5, hi, hl⟩⟩
    · obtain ⟨i, hi⟩ := tells (o.ipv4 = .allow ∧ o.loc = .allow ∧ o.atl ≠ .allow) False
      obtain ⟨l, hl⟩ := tells (o.loc = .allow ∧ o.atl ≠ .allow) (LocalName a)
      refine ⟨⟨a, i, l, p⟩, ?_, rfl⟩
      rw [Props.Domain.C58_domain]
      exact ⟨h1, d, h2, h3, .inr ⟨g1, g2, g3, g4, g5, hi, hl⟩⟩

/-- C66, `port` of `domain`. -/
theorem C66_domain_port (o : Domain.Opts) (idna : Domain.Idna) (cs : List Char) :
    Splits (fun p => Domain.parseStr { o with port := p } idna (strBytes cs)) id := by
  refine splits_local (A := fun v => Domain.parseStr { o with port := .allow } idna (strBytes cs) = .ok v) (L := fun v => v.port ≠ none) fun p v => ?_
  rw [gives_id, Props.Domain.C58_domain, Props.Domain.C58_domain, ← portOk_iff]
  constructor
  · rintro ⟨h1, d, h2, h3, h4⟩
    exact ⟨⟨h1, d, h2, trivial, h4⟩, h3⟩
  · rintro ⟨⟨h1, d, h2, _, h4⟩, h3⟩
    exact ⟨h1, d, h2, h3, h4⟩

theorem quad_unique (d : List UInt8) (x y : StdIp.V4) (h : QuadDot d x) (h' : QuadDot d y) : x = y := by
  have := (Domain.quadDot_iff d x).2 h
  rw [(Domain.quadDot_iff d y).2 h'] at this
  exact (Option.some.inj this).symm

/-- The host text is the dotted quad of a local address, or else the domain is a local name. -/
def localDomain (s : List UInt8) (x : List UInt8 × Option Nat) : Prop :=
  ∃ d, HostPort s d x.2 ∧ ((∃ y, QuadDot d y ∧ Local4 y.number) ∨ (∀ y, ¬ QuadDot d y) ∧ LocalName x.1)

theorem localDomain_quad (s d a : List UInt8) (p : Option Nat) (x : StdIp.V4) (h : HostPort s d p) (hx : QuadDot d x) :
    localDomain s (a, p) ↔ Local4 x.number := by
  constructor
  · rintro ⟨d', h', k⟩
    obtain ⟨rfl, _⟩ := Domain.hostPort_unique _ _ _ _ _ h h'
    rcases k with ⟨y, hy, hl⟩ | ⟨hn, _⟩
    · rw [quad_unique _ _ _ hx hy]; exact hl
    · exact absurd hx (hn x)
  · intro hl
    exact ⟨d, h, .inl ⟨x, hx, hl⟩⟩

theorem localDomain_name (s d a : List UInt8) (p : Option Nat) (h : HostPort s d p) (hx : ∀ x, ¬ QuadDot d x) :
    localDomain s (a, p) ↔ LocalName a := by
  constructor
  · rintro ⟨d', h', k⟩
    obtain ⟨rfl, _⟩ := Domain.hostPort_unique _ _ _ _ _ h h'
    rcases k with ⟨y, hy, _⟩ | ⟨_, hl⟩
    · exact absurd hy (hx y)
    · exact hl
  · intro hl
    exact ⟨d, h, .inr ⟨hx, hl⟩⟩

/-- Outside the plain case. -/
theorem domain_gives' (o : Domain.Opts) (idna : Domain.Idna) (cs : List Char) (hp : ¬ Plain o) (a : List UInt8) (p : Option Nat) :
    Gives (Domain.parseStr o idna (strBytes cs)) domainCore (a, p) ↔
      strBytes cs ≠ [] ∧ ∃ d, HostPort (strBytes cs) d p ∧ PortOk o.port p ∧ LocalOk o.loc (localDomain (strBytes cs) (a, p)) ∧
        ((∃ x, QuadDot d x) ∧ a = strBytes cs ∧ o.ipv4 ≠ .disallow ∧ o.atl ≠ .disallow ∨
          (∀ x, ¬ QuadDot d x) ∧ idna d = some a ∧ o.ipv4 ≠ .must ∧ LabelsOk o.atl (LocalName a) (ManyLabels a)) := by
  rw [domain_gives]
  refine and_congr_right fun _ => exists_congr fun d => and_congr_right fun hd => and_congr_right fun _ => ?_
  by_cases hx : ∃ x, QuadDot d x
  · obtain ⟨x, hx⟩ := hx
    rw [localDomain_quad _ _ _ _ x hd hx]
    have hn : ¬ ∀ x, ¬ QuadDot d x := fun h => h x hx
    constructor
    · rintro (⟨e, y, _, hy, g3, g4, g5⟩ | ⟨h | h, _⟩)
      · rw [quad_unique _ _ _ hy hx] at g5
        exact ⟨g5, .inl ⟨⟨x, hx⟩, e, g3, g4⟩⟩
      · exact absurd h hp
      · exact absurd h hn
    · rintro ⟨g5, ⟨_, e, g3, g4⟩ | ⟨h, _⟩⟩
      · exact .inl ⟨e, x, hp, hx, g3, g4, g5⟩
      · exact absurd h hn
  · have hn : ∀ x, ¬ QuadDot d x := fun x h => hx ⟨x, h⟩
    rw [localDomain_name _ _ _ _ hd hn]
    constructor
    · rintro (⟨_, y, _, hy, _⟩ | ⟨_, g2, g3, g4, g5⟩)
      · exact absurd hy (hn y)
      · exact ⟨g5, .inr ⟨hn, g3, g2, g4⟩⟩
    · rintro ⟨g5, ⟨h, _⟩ | ⟨_, g3, g2, g4⟩⟩
      · exact absurd h hx
      · exact .inr ⟨.inr hn, g2, g3, g4, g5⟩

/-- C66, `ipv4` and `local` of `domain`, when another option restricts the domain. Missing: the case that none does, where the
stored domain may differ, see `C66_domain_plain_partial` and `C66_domain_violated`. -/
theorem C66_domain_partial (o : Domain.Opts) (idna : Domain.Idna) (cs : List Char) :
    (¬ (o.loc = .allow ∧ o.atl = .allow) → Splits (fun i => Domain.parseStr { o with ipv4 := i } idna (strBytes cs)) domainCore) ∧
    (¬ (o.ipv4 = .allow ∧ o.atl = .allow) → Splits (fun l => Domain.parseStr { o with loc := l } idna (strBytes cs)) domainCore) ∧
    (¬ (o.ipv4 = .allow ∧ o.loc = .allow) → Covers (fun t => Domain.parseStr { o with atl := t } idna (strBytes cs)) domainCore) := by
  refine ⟨?_, ?_, ?_⟩
  · intro hp
    refine splits_local
      (A := fun x => Gives (Domain.parseStr { o with ipv4 := .allow } idna (strBytes cs)) domainCore x)
      (L := fun x => ∃ d y, HostPort (strBytes cs) d x.2 ∧ QuadDot d y) fun i x => ?_
    obtain ⟨a, p⟩ := x
    rw [domain_gives' _ _ _ (by simpa [Plain] using fun _ => not_and.1 hp), domain_gives' _ _ _ (by simpa [Plain] using not_and.1 hp)]
    constructor
    · rintro ⟨h1, d, h2, h3, h4, ⟨⟨x, hx⟩, e, g1, g2⟩ | ⟨hn, e, g1, g2⟩⟩
      · refine ⟨⟨h1, d, h2, h3, h4, .inl ⟨⟨x, hx⟩, e, by simp, g2⟩⟩, ?_⟩
        cases i <;> simp [LocalOk] at g1 ⊢
        exact ⟨d, h2, x, hx⟩
      · refine ⟨⟨h1, d, h2, h3, h4, .inr ⟨hn, e, by simp, g2⟩⟩, ?_⟩
        cases i <;> simp [LocalOk] at g1 ⊢
        intro d' h' x
        obtain ⟨rfl, _⟩ := Domain.hostPort_unique _ _ _ _ _ h2 h'
        exact hn x
    · rintro ⟨⟨h1, d, h2, h3, h4, ⟨⟨x, hx⟩, e, g1, g2⟩ | ⟨hn, e, g1, g2⟩⟩, hl⟩
      · refine ⟨h1, d, h2, h3, h4, .inl ⟨⟨x, hx⟩, e, ?_, g2⟩⟩
        rintro rfl
        exact hl ⟨d, x, h2, hx⟩
      · refine ⟨h1, d, h2, h3, h4, .inr ⟨hn, e, ?_, g2⟩⟩
        rintro rfl
        obtain ⟨d', y, h', hy⟩ := hl
        obtain ⟨rfl, _⟩ := Domain.hostPort_unique _ _ _ _ _ h2 h'
        exact hn y hy
  · intro hp
    refine splits_local
      (A := fun x => Gives (Domain.parseStr { o with loc := .allow } idna (strBytes cs)) domainCore x)
      (L := localDomain (strBytes cs)) fun l x => ?_
    obtain ⟨a, p⟩ := x
    rw [domain_gives' _ _ _ (by simp only [Plain]; tauto), domain_gives' _ _ _ (by simp only [Plain]; tauto)]
    constructor
    · rintro ⟨h1, d, h2, h3, h4, h5⟩
      exact ⟨⟨h1, d, h2, h3, trivial, h5⟩, h4⟩
    · rintro ⟨⟨h1, d, h2, h3, _, h5⟩, h4⟩
      exact ⟨h1, d, h2, h3, h4, h5⟩
  · intro hp ⟨a, p⟩
    rw [domain_gives' _ _ _ (by simp only [Plain]; tauto), domain_gives' _ _ _ (by simp only [Plain]; tauto),
      domain_gives' _ _ _ (by simp only [Plain]; tauto), ← and_or_left, ← exists_or]
    refine and_congr_right fun _ => exists_congr fun d => ?_
    by_cases hl : LocalName a <;> by_cases hm : ManyLabels a <;> by_cases hx : ∃ x, QuadDot d x <;>
      simp [LabelsOk, hl, hm, hx, ← and_or_left]

/-- The conversion accepts every dotted quad, with or without a final dot. -/
def QuadsAccepted (idna : Domain.Idna) : Prop := ∀ d x, QuadDot d x → ∃ a, idna d = some a

/-- C66, `ipv4`, `local` and `at_least_two_labels` of `domain`, when no other option restricts the domain: acceptance and the
port. Missing: the stored domain, for which it is false, see `C66_domain_violated`. -/
theorem C66_domain_plain_partial (port : TriAllow) (idna : Domain.Idna) (hq : QuadsAccepted idna) (cs : List Char) :
    Splits (fun i => Domain.parseStr ⟨i, .allow, port, .allow⟩ idna (strBytes cs)) Domain.Value.port ∧
    Splits (fun l => Domain.parseStr ⟨.allow, l, port, .allow⟩ idna (strBytes cs)) Domain.Value.port ∧
    Covers (fun t => Domain.parseStr ⟨.allow, .allow, port, t⟩ idna (strBytes cs)) Domain.Value.port := by
  have red : ∀ o p, Gives (Domain.parseStr o idna (strBytes cs)) Domain.Value.port p ↔
      ∃ a, Gives (Domain.parseStr o idna (strBytes cs)) domainCore (a, p) := by
    intro o p
    constructor
    · rintro ⟨v, hv, rfl⟩; exact ⟨v.domain, v, hv, rfl⟩
    · rintro ⟨a, v, hv, e⟩; exact ⟨v, hv, congrArg Prod.snd e⟩
  have plain : ∀ p, Gives (Domain.parseStr ⟨.allow, .allow, port, .allow⟩ idna (strBytes cs)) Domain.Value.port p ↔
      strBytes cs ≠ [] ∧ ∃ d, HostPort (strBytes cs) d p ∧ PortOk port p ∧ ∃ a, idna d = some a := by
    intro p
    simp only [red, domain_gives]
    constructor
    · rintro ⟨a, h1, d, h2, h3, ⟨_, x, h, _⟩ | ⟨_, _, h4, _⟩⟩
      · exact absurd ⟨rfl, rfl, rfl⟩ h
      · exact ⟨h1, d, h2, h3, a, h4⟩
    · rintro ⟨h1, d, h2, h3, a, h4⟩
      exact ⟨a, h1, d, h2, h3, .inr ⟨.inl ⟨rfl, rfl, rfl⟩, by simp, h4, trivial, trivial⟩⟩
  have other : ∀ i l t, ¬ (i = .allow ∧ l = .allow ∧ t = .allow) → ∀ p, Gives (Domain.parseStr ⟨i, l, port, t⟩ idna (strBytes cs)) Domain.Value.port p ↔
      strBytes cs ≠ [] ∧ ∃ d, HostPort (strBytes cs) d p ∧ PortOk port p ∧
        ((∃ x, QuadDot d x ∧ LocalOk l (Local4 x.number)) ∧ i ≠ .disallow ∧ t ≠ .disallow ∨
          (∀ x, ¬ QuadDot d x) ∧ i ≠ .must ∧ ∃ a, idna d = some a ∧ LabelsOk t (LocalName a) (ManyLabels a) ∧ LocalOk l (LocalName a)) := by
    intro i l t hp p
    simp only [red, domain_gives]
    constructor
    · rintro ⟨a, h1, d, h2, h3, ⟨_, x, _, g2, g3, g4, g5⟩ | ⟨g1, g2, g3, g4, g5⟩⟩
      · exact ⟨h1, d, h2, h3, .inl ⟨⟨x, g2, g5⟩, g3, g4⟩⟩
      · exact ⟨h1, d, h2, h3, .inr ⟨g1.resolve_left hp, g2, a, g3, g4, g5⟩⟩
    · rintro ⟨h1, d, h2, h3, ⟨⟨x, g2, g5⟩, g3, g4⟩ | ⟨g1, g2, a, g3, g4, g5⟩⟩
      · exact ⟨_, h1, d, h2, h3, .inl ⟨rfl, x, hp, g2, g3, g4, g5⟩⟩
      · exact ⟨a, h1, d, h2, h3, .inr ⟨.inr g1, g2, g3, g4, g5⟩⟩
  refine ⟨?_, ?_, ?_⟩
  · refine splits_local
      (A := fun p => Gives (Domain.parseStr ⟨.allow, .allow, port, .allow⟩ idna (strBytes cs)) Domain.Value.port p)
      (L := fun p => ∃ d y, HostPort (strBytes cs) d p ∧ QuadDot d y) fun i p => ?_
    cases i with
    | allow => simp [LocalOk]
    | must =>
      rw [other _ _ _ (by simp), plain]
      constructor
      · rintro ⟨h1, d, h2, h3, ⟨⟨x, hx, _⟩, _⟩ | ⟨_, h, _⟩⟩
        · exact ⟨⟨h1, d, h2, h3, hq d x hx⟩, d, x, h2, hx⟩
        · exact absurd rfl h
      · rintro ⟨⟨h1, d, h2, h3, _⟩, d', x, h', hx⟩
        exact ⟨h1, d', h', h3, .inl ⟨⟨x, hx, trivial⟩, by simp, by simp⟩⟩
    | disallow =>
      rw [other _ _ _ (by simp), plain]
      constructor
      · rintro ⟨h1, d, h2, h3, ⟨_, h, _⟩ | ⟨hn, _, a, ha, _⟩⟩
        · exact absurd rfl h
        · refine ⟨⟨h1, d, h2, h3, a, ha⟩, ?_⟩
          rintro ⟨d', x, h', hx⟩
          obtain ⟨rfl, _⟩ := Domain.hostPort_unique _ _ _ _ _ h2 h'
          exact hn x hx
      · rintro ⟨⟨h1, d, h2, h3, a, ha⟩, hl⟩
        exact ⟨h1, d, h2, h3, .inr ⟨fun x hx => hl ⟨d, x, h2, hx⟩, by simp, a, ha, trivial, trivial⟩⟩
  · refine splits_local
      (A := fun p => Gives (Domain.parseStr ⟨.allow, .allow, port, .allow⟩ idna (strBytes cs)) Domain.Value.port p)
      (L := fun p => ∃ d, HostPort (strBytes cs) d p ∧ ((∃ x, QuadDot d x ∧ Local4 x.number) ∨ (∀ x, ¬ QuadDot d x) ∧ ∃ a, idna d = some a ∧ LocalName a))
      fun l p => ?_
    have key : l ≠ .allow → (Gives (Domain.parseStr ⟨.allow, l, port, .allow⟩ idna (strBytes cs)) Domain.Value.port p ↔
        Gives (Domain.parseStr ⟨.allow, .allow, port, .allow⟩ idna (strBytes cs)) Domain.Value.port p ∧
        LocalOk l (∃ d, HostPort (strBytes cs) d p ∧
          ((∃ x, QuadDot d x ∧ Local4 x.number) ∨ (∀ x, ¬ QuadDot d x) ∧ ∃ a, idna d = some a ∧ LocalName a))) := by
      intro hl
      have sub : ∀ d, HostPort (strBytes cs) d p → ((∃ d, HostPort (strBytes cs) d p ∧
          ((∃ x, QuadDot d x ∧ Local4 x.number) ∨ (∀ x, ¬ QuadDot d x) ∧ ∃ a, idna d = some a ∧ LocalName a)) ↔
          ((∃ x, QuadDot d x ∧ Local4 x.number) ∨ (∀ x, ¬ QuadDot d x) ∧ ∃ a, idna d = some a ∧ LocalName a)) := by
        intro d hd
        constructor
        · rintro ⟨d', h', k⟩
          obtain ⟨rfl, _⟩ := Domain.hostPort_unique _ _ _ _ _ hd h'
          exact k
        · intro k; exact ⟨d, hd, k⟩
      rw [other _ _ _ (by simp [hl]), plain, and_assoc]
      refine and_congr_right fun _ => ?_
      rw [← exists_and_right]
      refine exists_congr fun d => ?_
      simp only [and_assoc]
      refine and_congr_right fun hd => and_congr_right fun _ => ?_
      rw [sub d hd]
      by_cases hx : ∃ x, QuadDot d x
      · obtain ⟨x, hx⟩ := hx
        obtain ⟨a, ha⟩ := hq d x hx
        have hn : ¬ ∀ x, ¬ QuadDot d x := fun h => h x hx
        have e : ∀ Q : StdIp.V4 → Prop, (∃ y, QuadDot d y ∧ Q y) ↔ Q x := by
          intro Q
          constructor
          · rintro ⟨y, hy, k⟩; rwa [quad_unique _ _ _ hx hy]
          · intro k; exact ⟨x, hx, k⟩
        rw [e, e]
        simp [hn, ha]
      · have hn : ∀ x, ¬ QuadDot d x := fun x h => hx ⟨x, h⟩
        have e : ∀ Q : StdIp.V4 → Prop, ¬ ∃ y, QuadDot d y ∧ Q y := fun Q ⟨y, hy, _⟩ => hn y hy
        cases ha : idna d with
        | none => simp [e, hn]
        | some a => cases l <;> simp [e, hn, LabelsOk, LocalOk]
    cases l with
    | allow => simp [LocalOk]
    | must => exact key (by simp)
    | disallow => exact key (by simp)
  · intro p
    rw [plain, other _ _ _ (by simp), other _ _ _ (by simp), ← and_or_left, ← exists_or]
    refine and_congr_right fun _ => exists_congr fun d => ?_
    rw [← and_or_left, ← and_or_left]
    refine and_congr_right fun _ => and_congr_right fun _ => ?_
    by_cases hx : ∃ x, QuadDot d x
    · obtain ⟨x, hx⟩ := hx
      exact ⟨fun _ => .inl (.inl ⟨⟨x, hx, trivial⟩, by simp, by simp⟩), fun _ => hq d x hx⟩
    · have hn : ∀ x, ¬ QuadDot d x := fun x h => hx ⟨x, h⟩
      constructor
      · rintro ⟨a, ha⟩
        by_cases hm : LocalName a ∨ ManyLabels a
        · exact .inl (.inr ⟨hn, by simp, a, ha, hm, trivial⟩)
        · exact .inr (.inr ⟨hn, by simp, a, ha, .inr fun h => hm (.inr h), trivial⟩)
      · rintro ((⟨⟨x, hx, _⟩, _⟩ | ⟨_, _, a, ha, _⟩) | (⟨⟨x, hx, _⟩, _⟩ | ⟨_, _, a, ha, _⟩))
        · exact absurd hx (hn x)
        · exact ⟨a, ha⟩
        · exact absurd hx (hn x)
        · exact ⟨a, ha⟩

/-- The conversion of ASCII host names accepts the dotted quads. -/
theorem ldh_quads : QuadsAccepted Domain.ldh := by
  have one : ∀ l : List UInt8, asc '.' ∉ l → Domain.labelsOf l = [l] := by
    intro l
    induction l with
    | nil => intro _; rfl
    | cons b l ih =>
      intro h
      have e := ih fun h' => h (List.mem_cons_of_mem _ h')
      unfold Domain.labelsOf at e ⊢
      rw [List.foldr_cons, e, if_neg (fun h' => h (by rw [h']; exact List.mem_cons_self))]
  have more : ∀ l r : List UInt8, asc '.' ∉ l → Domain.labelsOf (l ++ (ascii "." ++ r)) = l :: Domain.labelsOf r := by
    intro l r
    induction l with
    | nil => intro _; rfl
    | cons b l ih =>
      intro h
      have e := ih fun h' => h (List.mem_cons_of_mem _ h')
      unfold Domain.labelsOf at e ⊢
      rw [List.cons_append, List.foldr_cons, e, if_neg (fun h' => h (by rw [h']; exact List.mem_cons_self))]
  have octet : ∀ b : UInt8, asc '.' ∉ dec b.toNat ∧ (∀ c ∈ dec b.toNat, c ∈ ascii "0123456789") ∧ 1 ≤ (dec b.toNat).length ∧
      (dec b.toNat).length ≤ 3 := by
    apply BaseN.forall_uint8; decide +kernel
  have digits : ∀ c ∈ ascii "0123456789", c ∈ ascii "abcdefghijklmnopqrstuvwxyz0123456789-." ∧ c ≠ asc '-' ∧ c ≠ asc '.' := by decide
  have accepted : ∀ x : StdIp.V4, ∀ t, t = x.text ∨ t = x.text ++ ascii "." → Domain.ldh t = some t := by
    rintro ⟨a, b, c, d⟩ t ht
    obtain ⟨a1, a2, a3, a4⟩ := octet a
    obtain ⟨b1, b2, b3, b4⟩ := octet b
    obtain ⟨c1, c2, c3, c4⟩ := octet c
    obtain ⟨d1, d2, d3, d4⟩ := octet d
    have hx : (StdIp.V4.mk a b c d).text =
        dec a.toNat ++ (ascii "." ++ (dec b.toNat ++ (ascii "." ++ (dec c.toNat ++ (ascii "." ++ dec d.toNat))))) := by
      simp [StdIp.V4.text, dotted]
    have last : ¬ ∃ l, (StdIp.V4.mk a b c d).text = l ++ ascii "." := by
      rw [hx]
      rintro ⟨l, e⟩
      obtain ⟨pre, z, hz⟩ : ∃ pre z, dec d.toNat = pre ++ [z] := by
        rcases List.eq_nil_or_concat (dec d.toNat) with h | ⟨pre, z, h⟩
        · rw [h] at d3; simp at d3
        · exact ⟨pre, z, by simpa using h⟩
      rw [hz] at e
      simp only [← List.append_assoc] at e
      have := (List.append_inj' e rfl).2
      have hz' := (digits z (d2 z (by simp [hz]))).2.2
      apply hz'
      simpa [ascii] using this
    have hs : Domain.stripDot t = (StdIp.V4.mk a b c d).text := by
      apply (Domain.stem_iff _ _).1
      rcases ht with rfl | rfl
      · exact .inr ⟨rfl, last⟩
      · exact .inl rfl
    have ok : ∀ y ∈ (StdIp.V4.mk a b c d).text, y ∈ ascii "abcdefghijklmnopqrstuvwxyz0123456789-." := by
      rw [hx]
      intro y hy
      simp only [List.mem_append] at hy
      have dot : ∀ y ∈ ascii ".", y ∈ ascii "abcdefghijklmnopqrstuvwxyz0123456789-." := by decide
      rcases hy with h | h | h | h | h | h | h
      · exact (digits y (a2 y h)).1
      · exact dot y h
      · exact (digits y (b2 y h)).1
      · exact dot y h
      · exact (digits y (c2 y h)).1
      · exact dot y h
      · exact (digits y (d2 y h)).1
    have okt : ∀ y ∈ t, y ∈ ascii "abcdefghijklmnopqrstuvwxyz0123456789-." := by
      rcases ht with rfl | rfl
      · exact ok
      · intro y hy
        rcases List.mem_append.1 hy with h | h
        · exact ok y h
        · clear hy; revert h; revert y; decide
    have len : (StdIp.V4.mk a b c d).text.length ≤ 253 ∧ 1 ≤ (StdIp.V4.mk a b c d).text.length := by
      rw [hx]
      simp only [List.length_append]
      have : (ascii ".").length = 1 := rfl
      omega
    have hl : Domain.labelsOf (StdIp.V4.mk a b c d).text = [dec a.toNat, dec b.toNat, dec c.toNat, dec d.toNat] := by
      rw [hx, more _ _ a1, more _ _ b1, more _ _ c1, one _ d1]
    have label : ∀ u : List UInt8, (∀ y ∈ u, y ∈ ascii "0123456789") → 1 ≤ u.length → u.length ≤ 3 →
        u ≠ [] ∧ u.length ≤ 63 ∧ u.head? ≠ some (asc '-') ∧ u.getLast? ≠ some (asc '-') := by
      intro u h h1 h3
      refine ⟨by rintro rfl; simp at h1, by omega, ?_, ?_⟩
      · intro e; exact (digits _ (h _ (List.mem_of_mem_head? e))).2.1 rfl
      · intro e; exact (digits _ (h _ (List.mem_of_mem_getLast? e))).2.1 rfl
    unfold Domain.ldh
    simp only [Domain.map_lowered t okt, hs, hl]
    refine if_pos ⟨?_, len.1, ?_, okt, ?_⟩
    · intro e; rw [e] at len; simp at len
    · rw [ne_eq, Domain.getLast_dot]; exact last
    · intro u hu
      simp only [List.mem_cons, List.not_mem_nil, or_false] at hu
      rcases hu with rfl | rfl | rfl | rfl
      · exact label _ a2 a3 a4
      · exact label _ b2 b3 b4
      · exact label _ c2 c3 c4
      · exact label _ d2 d3 d4
  intro t x ht
  exact ⟨t, accepted x t ht⟩

/-- C66 fails for the stored domain: with `local(Must)`, `ipv4(Must)` or `at_least_two_labels(Must)` the port is part of the
domain of an IPv4 address, and with no option it is not. -/
theorem C66_domain_violated :
    Domain.parseStr ⟨.allow, .allow, .allow, .allow⟩ Domain.ldh (ascii "10.0.0.1:80") = .ok ⟨ascii "10.0.0.1", none, none, some 80⟩ ∧
    Domain.parseStr ⟨.allow, .must, .allow, .allow⟩ Domain.ldh (ascii "10.0.0.1:80") = .ok ⟨ascii "10.0.0.1:80", none, none, some 80⟩ ∧
    Domain.parseStr ⟨.must, .allow, .allow, .allow⟩ Domain.ldh (ascii "10.0.0.1:80") = .ok ⟨ascii "10.0.0.1:80", none, none, some 80⟩ ∧
    Domain.parseStr ⟨.allow, .allow, .allow, .must⟩ Domain.ldh (ascii "10.0.0.1:80") =
      .ok ⟨ascii "10.0.0.1:80", some true, some true, some 80⟩ := by decide +kernel

/-- C66: `at_least_two_labels(Must)` and `at_least_two_labels(Disallow)` of `domain` both accept a text exactly if it is a local
name that the other options admit. -/
theorem C66_domain_labels_both (o : Domain.Opts) (idna : Domain.Idna) (cs : List Char) :
    (Domain.parseStr { o with atl := .must } idna (strBytes cs)).IsOk ∧ (Domain.parseStr { o with atl := .disallow } idna (strBytes cs)).IsOk ↔
      ∃ d p a, HostPort (strBytes cs) d p ∧ PortOk o.port p ∧ idna d = some a ∧ LocalName a ∧ (∀ x, ¬ QuadDot d x) ∧ strBytes cs ≠ [] ∧
        o.ipv4 ≠ .must ∧ o.loc ≠ .disallow := by
  have ok : ∀ o, (Domain.parseStr o idna (strBytes cs)).IsOk ↔ ∃ a p, Gives (Domain.parseStr o idna (strBytes cs)) domainCore (a, p) :=
    fun o => ⟨fun ⟨v, hv⟩ => ⟨v.domain, v.port, v, hv, rfl⟩, fun ⟨a, p, v, hv, _⟩ => ⟨v, hv⟩⟩
  rw [ok, ok]
  simp only [domain_gives]
  constructor
  · rintro ⟨⟨a, p, h1, d, h2, h3, h⟩, a', p', _, d', h2', h3', h'⟩
    obtain ⟨rfl, rfl⟩ := Domain.hostPort_unique _ _ _ _ _ h2 h2'
    rcases h' with ⟨_, _, _, _, _, h, _⟩ | ⟨g1, g2, g3, g4, g5⟩
    · exact absurd rfl h
    · have hn : ∀ x, ¬ QuadDot d x := g1.resolve_left (by simp [Plain])
      rcases h with ⟨_, x, _, hx, _⟩ | ⟨_, _, k3, k4, k5⟩
      · exact absurd hx (hn x)
      · rw [k3] at g3
        cases g3
        have hl : LocalName a := by
          by_cases hl : LocalName a
          · exact hl
          · exact absurd (k4.resolve_left hl) (g4.resolve_left hl)
        exact ⟨d, p, a, h2, h3, k3, hl, hn, h1, g2, fun e => by simp [e, LocalOk] at g5; exact g5 hl⟩
  · rintro ⟨d, p, a, h2, h3, h4, hl, hn, h1, g2, g5⟩
    have hlo : LocalOk o.loc (LocalName a) := by
      cases hc : o.loc <;> simp [hc, LocalOk] at g5 ⊢
      exact hl
    exact ⟨⟨a, p, h1, d, h2, h3, .inr ⟨.inr hn, g2, h4, .inl hl, hlo⟩⟩, a, p, h1, d, h2, h3, .inr ⟨.inr hn, g2, h4, .inl hl, hlo⟩⟩

/-! ## `host` -/

open Verif.Spec.Host (LocalHost)

/-- What does not depend on `local` and `at_least_two_labels`: the host and the port. -/
def hostCore (v : Host.Value) : Host.Host × Option Nat := (v.host, v.port)

/-- What `at_least_two_labels` asks of a host: an address has two labels. -/
def LabelsOkHost (o : TriAllow) : Host.Host → Prop
  | .domain a => LabelsOk o (LocalName a) (ManyLabels a)
  | _ => o ≠ .disallow

theorem host_gives (o : Host.Opts) (idna : Domain.Idna) (cs : List Char) (h : Host.Host) (p : Option Nat) :
    Gives (Host.parseStr o idna (strBytes cs)) hostCore (h, p) ↔
      Gives (Host.parseStr ⟨.allow, .allow, .allow⟩ idna (strBytes cs)) hostCore (h, p) ∧ PortOk o.port p ∧ LocalOk o.loc (LocalHost h) ∧
        LabelsOkHost o.atl h := by
  have fin : ∀ o v, Host.parseStr o idna (strBytes cs) = .ok v →
      ∃ w, Host.parseStr ⟨.allow, .allow, .allow⟩ idna (strBytes cs) = .ok w ∧ hostCore w = hostCore v := by
    intro o v hv
    rw [Props.Host.C37_host] at hv
    refine ⟨⟨v.host, none, v.port⟩, ?_, rfl⟩
    rw [Props.Host.C37_host]
    have t : ∀ p, Tells (Verif.Spec.Host.ShowsLocal ⟨.allow, .allow, .allow⟩) none p := fun p => by simp [Tells, Verif.Spec.Host.ShowsLocal]
    refine ⟨trivial, ?_⟩
    rcases hv with ⟨_, ⟨x, h1, h2, _⟩ | ⟨x, h1, h2, _⟩ | ⟨d, a, h1, h2, h3, h4, _⟩⟩
    · exact .inl ⟨x, h1, h2, by simp, trivial, t _⟩
    · exact .inr (.inl ⟨x, h1, h2, by simp, trivial, t _⟩)
    · exact .inr (.inr ⟨d, a, h1, h2, h3, h4, trivial, trivial, t _⟩)
  constructor
  · rintro ⟨v, hv, e⟩
    cases e
    obtain ⟨w, hw, e⟩ := fin o v hv
    refine ⟨⟨w, hw, e⟩, ?_⟩
    rw [Props.Host.C37_host] at hv
    rcases hv with ⟨hp, ⟨x, h1, h2, h3, h4, _⟩ | ⟨x, h1, h2, h3, h4, _⟩ | ⟨d, a, h1, h2, _, _, h3, h4, _⟩⟩
    · rw [h1]; exact ⟨hp, h4, h3⟩
    · rw [h1]; exact ⟨hp, h4, h3⟩
    · rw [h1]; exact ⟨hp, h4, h3⟩
  · rintro ⟨⟨v, hv, e⟩, hp, hl, ht⟩
    cases e
    rw [Props.Host.C37_host] at hv
    obtain ⟨l, t⟩ := tells (Verif.Spec.Host.ShowsLocal o) (LocalHost v.host)
    refine ⟨⟨v.host, l, v.port⟩, ?_, rfl⟩
    rw [Props.Host.C37_host]
    refine ⟨hp, ?_⟩
    rcases hv with ⟨_, ⟨x, h1, h2, _⟩ | ⟨x, h1, h2, _⟩ | ⟨d, a, h1, h2, h3, h4, _⟩⟩
    · rw [h1] at hl ht t; exact .inl ⟨x, h1, h2, ht, hl, t⟩
    · rw [h1] at hl ht t; exact .inr (.inl ⟨x, h1, h2, ht, hl, t⟩)
    · rw [h1] at hl ht t; exact .inr (.inr ⟨d, a, h1, h2, h3, h4, ht, hl, t⟩)

theorem labels_cover (h : Host.Host) : LabelsOkHost .allow h ↔ LabelsOkHost .must h ∨ LabelsOkHost .disallow h := by
  cases h with
  | domain a => by_cases hl : LocalName a <;> by_cases hm : ManyLabels a <;> simp [LabelsOkHost, LabelsOk, hl, hm]
  | ipv4 x => simp [LabelsOkHost]
  | ipv6 x => simp [LabelsOkHost]

theorem labels_both (h : Host.Host) : LabelsOkHost .must h ∧ LabelsOkHost .disallow h ↔ ∃ a, h = .domain a ∧ LocalName a := by
  cases h with
  | domain a => by_cases hl : LocalName a <;> by_cases hm : ManyLabels a <;> simp [LabelsOkHost, LabelsOk, hl, hm]
  | ipv4 x => simp [LabelsOkHost]
  | ipv6 x => simp [LabelsOkHost]

/-- C66, `port`, `local` and `at_least_two_labels` of `host`. -/
theorem C66_host (o : Host.Opts) (idna : Domain.Idna) (cs : List Char) :
    Splits (fun p => Host.parseStr { o with port := p } idna (strBytes cs)) hostCore ∧
    Splits (fun l => Host.parseStr { o with loc := l } idna (strBytes cs)) hostCore ∧
    Covers (fun t => Host.parseStr { o with atl := t } idna (strBytes cs)) hostCore := by
  refine ⟨?_, ?_, ?_⟩
  · refine splits_local (A := fun x => Gives (Host.parseStr ⟨.allow, .allow, .allow⟩ idna (strBytes cs)) hostCore x ∧
      LocalOk o.loc (LocalHost x.1) ∧ LabelsOkHost o.atl x.1) (L := fun x => x.2 ≠ none) fun p x => ?_
    obtain ⟨h, q⟩ := x
    rw [host_gives, portOk_iff]; simp only; tauto
  · refine splits_local (A := fun x => Gives (Host.parseStr ⟨.allow, .allow, .allow⟩ idna (strBytes cs)) hostCore x ∧
      PortOk o.port x.2 ∧ LabelsOkHost o.atl x.1) (L := fun x => LocalHost x.1) fun p x => ?_
    obtain ⟨h, q⟩ := x
    rw [host_gives]; simp only; tauto
  · rintro ⟨h, q⟩
    rw [host_gives, host_gives { o with atl := .must }, host_gives { o with atl := .disallow }]
    simp only [← and_or_left, ← labels_cover]

/-- C66: both label options accept a text exactly if they accept it as a local name. -/
theorem C66_host_labels_both (o : Host.Opts) (idna : Domain.Idna) (cs : List Char) :
    (Host.parseStr { o with atl := .must } idna (strBytes cs)).IsOk ∧ (Host.parseStr { o with atl := .disallow } idna (strBytes cs)).IsOk ↔
      ∃ a p, Gives (Host.parseStr { o with atl := .allow } idna (strBytes cs)) hostCore (.domain a, p) ∧ LocalName a := by
  constructor
  · rintro ⟨⟨v, hv⟩, w, hw⟩
    have h1 := (host_gives _ idna cs _ _).1 ⟨v, hv, rfl⟩
    have h2 := (host_gives _ idna cs _ _).1 ⟨w, hw, rfl⟩
    have e : (v.host, v.port) = (w.host, w.port) := by
      obtain ⟨⟨v', e1, k1⟩, _⟩ := h1
      obtain ⟨⟨w', e2, k2⟩, _⟩ := h2
      rw [e1] at e2
      cases e2
      exact k1.symm.trans k2
    injection e with e1 e2
    rw [← e1, ← e2] at h2
    obtain ⟨a, ha, hl⟩ := (labels_both v.host).1 ⟨h1.2.2.2, h2.2.2.2⟩
    refine ⟨a, v.port, (host_gives _ idna cs _ _).2 ?_, hl⟩
    rw [ha] at h1
    exact ⟨h1.1, h1.2.1, h1.2.2.1, trivial⟩
  · rintro ⟨a, p, h, hl⟩
    have h := (host_gives _ idna cs _ _).1 h
    have b := (labels_both (.domain a)).2 ⟨a, rfl, hl⟩
    obtain ⟨v, hv, _⟩ := (host_gives { o with atl := .must } idna cs _ _).2 ⟨h.1, h.2.1, h.2.2.1, b.1⟩
    obtain ⟨w, hw, _⟩ := (host_gives { o with atl := .disallow } idna cs _ _).2 ⟨h.1, h.2.1, h.2.2.1, b.2⟩
    exact ⟨⟨v, hv⟩, w, hw⟩

example : Host.parseStr ⟨.must, .must, .must⟩ Domain.ldh (ascii "localhost:80") = .ok ⟨.domain (ascii "localhost"), none, some 80⟩ ∧
    Host.parseStr ⟨.must, .must, .disallow⟩ Domain.ldh (ascii "localhost:80") = .ok ⟨.domain (ascii "localhost"), none, some 80⟩ ∧
    Host.parseStr ⟨.disallow, .disallow, .must⟩ Domain.ldh (ascii "a.b") = .ok ⟨.domain (ascii "a.b"), none, none⟩ := by decide +kernel

/-! ## `email` -/

open Verif.Spec.Email (Denotes HostOk DomainText)

/-- Everything but the field `is_local`. -/
def emailCore (v : Email.Value) : Email.Value := { v with isLocal := none }

/-- The options that restrict the host are lifted. -/
def anyHost (o : Email.Opts) : Email.Opts := { o with ip := .allow, loc := .allow, atl := .allow }

theorem email_gives (o : Email.Opts) (idna : Domain.Idna) (cs : List Char) (w : Email.Value) :
    Gives (Email.parseStr o idna (strBytes cs)) emailCore w ↔
      Gives (Email.parseStr (anyHost o) idna (strBytes cs)) emailCore w ∧ HostOk o w.host := by
  constructor
  · rintro ⟨v, hv, rfl⟩
    obtain ⟨q, t, h, tail, d⟩ := (Props.Email.C62_email _ _ _ _).1 hv
    refine ⟨⟨emailCore v, (Props.Email.C62_email _ _ _ _).2 ⟨q, t, h, tail, ?_⟩, rfl⟩, d.domainText.ok⟩
    refine ⟨d.text, d.short, ?_, d.comment2, d.needQuoted, ?_, by simp [Tells, anyHost, emailCore]⟩
    · exact ⟨d.localText.closed, d.localText.allowed, d.localText.short, d.localText.unquoted, d.localText.quoted⟩
    · refine ⟨d.domainText.text, d.domainText.closed, d.domainText.allowed, d.domainText.host, ?_, d.domainText.after, d.domainText.short, d.domainText.printed⟩
      unfold HostOk
      split <;> simp [anyHost, LabelsOk, LocalOk]
  · rintro ⟨⟨v, hv, rfl⟩, hk⟩
    obtain ⟨q, t, h, tail, d⟩ := (Props.Email.C62_email _ _ _ _).1 hv
    obtain ⟨l, ht⟩ := tells (o.loc = .allow ∧ o.atl ≠ .allow) (LocalHost v.host)
    refine ⟨{ v with isLocal := l }, (Props.Email.C62_email _ _ _ _).2 ⟨q, t, h, tail, ?_⟩, rfl⟩
    refine ⟨d.text, d.short, ?_, d.comment2, d.needQuoted, ?_, ht⟩
    · exact ⟨d.localText.closed, d.localText.allowed, d.localText.short, d.localText.unquoted, d.localText.quoted⟩
    · exact ⟨d.domainText.text, d.domainText.closed, d.domainText.allowed, d.domainText.host, hk, d.domainText.after, d.domainText.short, d.domainText.printed⟩

theorem hostOk_iff (o : Email.Opts) (h : Host.Host) :
    HostOk o h ↔ LocalOk o.ip (¬ ∃ a, h = .domain a) ∧ LocalOk o.loc (LocalHost h) ∧ LabelsOkHost o.atl h := by
  cases h <;> cases hi : o.ip <;> simp [HostOk, LocalOk, LabelsOkHost, LocalHost, hi] <;> tauto

/-- C66, `ip`, `local` and `at_least_two_labels` of `email`. -/
theorem C66_email_host (o : Email.Opts) (idna : Domain.Idna) (cs : List Char) :
    Splits (fun i => Email.parseStr { o with ip := i } idna (strBytes cs)) emailCore ∧
    Splits (fun l => Email.parseStr { o with loc := l } idna (strBytes cs)) emailCore ∧
    Covers (fun t => Email.parseStr { o with atl := t } idna (strBytes cs)) emailCore := by
  refine ⟨?_, ?_, ?_⟩
  · refine splits_local (A := fun v => Gives (Email.parseStr (anyHost o) idna (strBytes cs)) emailCore v ∧
      LocalOk o.loc (LocalHost v.host) ∧ LabelsOkHost o.atl v.host) (L := fun v => ¬ ∃ a, v.host = .domain a) fun i v => ?_
    rw [email_gives, hostOk_iff]; simp only [anyHost]; tauto
  · refine splits_local (A := fun v => Gives (Email.parseStr (anyHost o) idna (strBytes cs)) emailCore v ∧
      LocalOk o.ip (¬ ∃ a, v.host = .domain a) ∧ LabelsOkHost o.atl v.host) (L := fun v => LocalHost v.host) fun i v => ?_
    rw [email_gives, hostOk_iff]; simp only [anyHost]; tauto
  · intro v
    rw [email_gives, email_gives { o with atl := .must }, email_gives { o with atl := .disallow }, hostOk_iff, hostOk_iff, hostOk_iff]
    simp only [anyHost, ← and_or_left, ← labels_cover]

/-- C66, `comment`: `Disallow` accepts what `Allow` accepts with no comment, with the same value. -/
theorem C66_email_comment (o : Email.Opts) (idna : Domain.Idna) (cs : List Char) (v : Email.Value) :
    Email.parseStr { o with comment := .disallow } idna (strBytes cs) = .ok v ↔
      Email.parseStr { o with comment := .allow } idna (strBytes cs) = .ok v ∧
        v.comment1 = none ∧ v.comment2 = none ∧ v.comment3 = none ∧ v.comment4 = none := by
  rw [Props.Email.C62_email, Props.Email.C62_email]
  constructor
  · rintro ⟨q, t, h, tail, d⟩
    have c1 : v.comment1 = none := by
      by_contra hc; simpa using d.localText.allowed hc
    have c2 : v.comment2 = none := by
      by_contra hc; simpa using (d.comment2.2 hc).1
    have c3 : v.comment3 = none := by
      by_contra hc; simpa using d.domainText.allowed hc
    have c4 : v.comment4 = none := by
      by_contra hc; simpa using d.domainText.after.2.1 hc
    refine ⟨⟨q, t, h, tail, ?_⟩, c1, c2, c3, c4⟩
    refine ⟨d.text, d.short, ?_, ⟨d.comment2.1, fun h => absurd c2 h⟩, d.needQuoted, ?_, d.isLocal⟩
    · exact ⟨d.localText.closed, fun _ => rfl, d.localText.short, d.localText.unquoted, d.localText.quoted⟩
    · exact ⟨d.domainText.text, d.domainText.closed, fun _ => rfl, d.domainText.host, d.domainText.ok,
        ⟨d.domainText.after.1, fun _ => rfl, d.domainText.after.2.2⟩, d.domainText.short, d.domainText.printed⟩
  · rintro ⟨⟨q, t, h, tail, d⟩, c1, c2, c3, c4⟩
    refine ⟨q, t, h, tail, d.text, d.short, ?_, ⟨d.comment2.1, fun h => absurd c2 h⟩, d.needQuoted, ?_, d.isLocal⟩
    · exact ⟨d.localText.closed, fun h => absurd c1 h, d.localText.short, d.localText.unquoted, d.localText.quoted⟩
    · exact ⟨d.domainText.text, d.domainText.closed, fun h => absurd c3 h, d.domainText.host, d.domainText.ok,
        ⟨d.domainText.after.1, fun h => absurd c4 h, d.domainText.after.2.2⟩, d.domainText.short, d.domainText.printed⟩

theorem unquoted_ascii (na : Allow) (t : List UInt8) (ha : ∀ b ∈ t, b.toNat < 128) :
    Spec.Email.Unquoted na t ↔ Spec.Email.Unquoted .disallow t := by
  unfold Spec.Email.Unquoted
  refine and_congr_right fun _ => and_congr_right fun _ => and_congr_left fun _ => forall_congr' fun b => ?_
  refine forall_congr' fun hb => ?_
  have : ¬ 128 ≤ b.toNat := by have := ha b hb; omega
  simp [Spec.Email.Wide, this]

theorem quoted_ascii (na : Allow) (e : List UInt8 → Prop) (t : List UInt8) (ha : ∀ b ∈ t, b.toNat < 128) :
    Spec.Email.Quoted e na t ↔ Spec.Email.Quoted e .disallow t := by
  unfold Spec.Email.Quoted
  refine and_congr_right fun _ => and_congr_left fun _ => ?_
  refine forall_congr' fun pre => forall_congr' fun b => forall_congr' fun post => forall_congr' fun hb => ?_
  have : ¬ 128 ≤ b.toNat := by have := ha b (by simp [hb]); omega
  simp [Spec.Email.Wide, this]

/-- C66, `non_ascii`: `Disallow` accepts what `Allow` accepts with an ASCII local part, with the same value. -/
theorem C66_email_non_ascii (o : Email.Opts) (idna : Domain.Idna) (cs : List Char) (v : Email.Value) :
    Email.parseStr { o with nonAscii := .disallow } idna (strBytes cs) = .ok v ↔
      Email.parseStr { o with nonAscii := .allow } idna (strBytes cs) = .ok v ∧ ∀ b ∈ v.text, b.toNat < 128 := by
  rw [Props.Email.C62_email, Props.Email.C62_email]
  have low : ∀ b, b ∈ Spec.Email.atext ∨ b ∈ ascii ".\\ \t" ∨ b ∈ Spec.Email.specials → b.toNat < 128 := by
    apply BaseN.forall_uint8; decide +kernel
  constructor
  · rintro ⟨q, t, h, tail, d⟩
    have ha : ∀ b ∈ v.text, b.toNat < 128 := by
      intro b hb
      cases q with
      | false =>
        rcases (d.localText.unquoted rfl).1.2.2.1 b hb with k | rfl | k
        · exact low b (.inl k)
        · decide
        · exact absurd k.1 (by simp)
      | true =>
        obtain ⟨pre, post, e⟩ := List.append_of_mem hb
        rcases (d.localText.quoted rfl).1.2.1 pre b post e with k | k | k | k
        · exact low b (.inl k)
        · exact low b (.inr (.inl k))
        · exact absurd k.1 (by simp)
        · exact low b (.inr (.inr k.1))
    refine ⟨⟨q, t, h, tail, d.text, d.short, ?_, d.comment2, ?_, ?_, d.isLocal⟩, ha⟩
    · refine ⟨d.localText.closed, d.localText.allowed, d.localText.short, ?_, ?_⟩
      · intro hq; rw [unquoted_ascii _ _ ha]; exact d.localText.unquoted hq
      · intro hq; rw [quoted_ascii _ _ _ ha]; exact d.localText.quoted hq
    · rw [unquoted_ascii _ _ ha]; exact d.needQuoted
    · exact ⟨d.domainText.text, d.domainText.closed, d.domainText.allowed, d.domainText.host, d.domainText.ok, d.domainText.after, d.domainText.short, d.domainText.printed⟩
  · rintro ⟨⟨q, t, h, tail, d⟩, ha⟩
    refine ⟨q, t, h, tail, d.text, d.short, ?_, d.comment2, ?_, ?_, d.isLocal⟩
    · refine ⟨d.localText.closed, d.localText.allowed, d.localText.short, ?_, ?_⟩
      · intro hq
        have k := d.localText.unquoted hq
        rw [unquoted_ascii _ _ ha] at k; exact k
      · intro hq
        have k := d.localText.quoted hq
        rw [quoted_ascii _ _ _ ha] at k; exact k
    · have k := d.needQuoted
      rw [unquoted_ascii _ _ ha] at k; exact k
    · exact ⟨d.domainText.text, d.domainText.closed, d.domainText.allowed, d.domainText.host, d.domainText.ok, d.domainText.after, d.domainText.short, d.domainText.printed⟩

example : Email.parseStr ⟨.disallow, .must, .must, .must, .disallow, true⟩ Domain.ldh (ascii "a@[127.0.0.1]") =
      .ok ⟨ascii "a", false, .ipv4 ⟨127, 0, 0, 1⟩, none, none, none, none, none⟩ ∧
    Email.parseStr ⟨.allow, .allow, .allow, .must, .allow, true⟩ Domain.ldh (ascii "a@[127.0.0.1]") =
      .ok ⟨ascii "a", false, .ipv4 ⟨127, 0, 0, 1⟩, none, none, none, none, some true⟩ := by decide +kernel

/-! ## URLs -/

/-- C66, `local` of `http_url` and `http_ftp_url`. -/
theorem C66_url {U : Type} (lib : Url.Lib U) (contract : Spec.Url.HostsPresent lib) (s : List UInt8) :
    Splits (fun l => Url.parseHttp lib l s) id ∧ Splits (fun l => Url.parseHttpFtp lib l s) id := by
  constructor
  · refine splits_local (A := fun x => Spec.Url.HasScheme (Props.Url.flagScheme x.2) s ∧ lib.parse s = some x.1)
      (L := fun x => Spec.Url.LocalUrl lib x.1) fun l x => ?_
    obtain ⟨u, b⟩ := x
    rw [gives_id, (Props.Url.C46_http lib contract l s).1, and_assoc]
  · refine splits_local (A := fun x => Spec.Url.HasScheme (Spec.Url.schemeOf x.2) s ∧ lib.parse s = some x.1)
      (L := fun x => Spec.Url.LocalUrl lib x.1) fun l x => ?_
    obtain ⟨u, b⟩ := x
    rw [gives_id, (Props.Url.C46_http_ftp lib contract l s).1, and_assoc]

example : Spec.Url.HostsPresent Props.Url.toy ∧ Url.parseHttp Props.Url.toy .must (ascii "HtTpS://localhost") = .ok ((), true) ∧
    Url.parseHttp Props.Url.toy .allow (ascii "HtTpS://localhost") = .ok ((), true) :=
  ⟨fun _ _ _ _ _ => ⟨_, rfl⟩, by decide, by decide⟩

end Verif.Props.Options
