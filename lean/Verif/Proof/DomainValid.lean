import Verif.Proof.Domain

/-! The outcome of the `domain` validator, and its authority strings. -/

namespace Verif.Domain

open Verif.StdIp Verif.Spec Verif.Spec.Ip Verif.Spec.Domain
open Verif.Ip (Str strSlice isLocalV4 isLocalV4_iff portText_colon strSlice_mid)

theorem tells_iff (shown : Prop) [Decidable shown] (f : Option Bool) (b : Bool) :
    Tells shown f (b = true) ↔ f = if shown then some b else none := by
  unfold Tells
  by_cases h : shown
  · simp only [h, forall_const, not_true_eq_false, false_implies, and_true, if_true]
    constructor
    · rintro ⟨c, rfl, hc⟩
      rw [Bool.eq_iff_iff.2 hc]
    · rintro rfl; exact ⟨b, rfl, Iff.rfl⟩
  · simp [h]

theorem tells_congr (shown : Prop) (f : Option Bool) (p q : Prop) (h : p ↔ q) : Tells shown f p ↔ Tells shown f q := by rw [propext h]

theorem fields_iff (o : Opts) (v : Value) (q l : Bool) (P Q : Prop) (hP : q = true ↔ P) (hQ : l = true ↔ Q) :
    Fields o v P Q ↔ v.isIpv4 = (if o.ipv4 = .allow ∧ o.loc = .allow ∧ o.atl ≠ .allow then some q else none) ∧
      v.isLocal = (if o.loc = .allow ∧ o.atl ≠ .allow then some (localOf o l) else none) := by
  unfold Fields
  rw [← tells_congr _ _ _ _ hP, ← tells_congr _ _ _ _ hQ, tells_iff, tells_iff]
  have : (if o.loc = .allow ∧ o.atl ≠ .allow then some l else none) =
      (if o.loc = .allow ∧ o.atl ≠ .allow then some (localOf o l) else none) := by
    split
    · rename_i h
      rw [localOf, if_neg (fun h' => h.2 h'.2)]
    · rfl
  rw [this]

theorem create_ok (o : Opts) (r : Parsed) (hp : PortOk o.port r.2.1) (v : Value) :
    create o r = .ok v ↔ v.domain = r.1 ∧ v.port = r.2.1 ∧
      v.isIpv4 = (if o.ipv4 = .allow ∧ o.loc = .allow ∧ o.atl ≠ .allow then some r.2.2.1 else none) ∧
      v.isLocal = (if o.loc = .allow ∧ o.atl ≠ .allow then some r.2.2.2 else none) := by
  obtain ⟨a, p, q, l⟩ := r
  obtain ⟨d, vi, vl, vp⟩ := v
  simp only at hp
  unfold create
  cases ho : o.port with
  | allow => simp only [Out.ok.injEq, Value.mk.injEq]; constructor <;> (rintro ⟨h1, h2, h3, h4⟩; simp only [h1, h2, h3, h4, and_self])
  | must =>
    rw [ho] at hp
    cases p with
    | none => exact absurd rfl hp
    | some p => simp only [Out.ok.injEq, Value.mk.injEq]; constructor <;> (rintro ⟨h1, h2, h3, h4⟩; simp only [h1, h2, h3, h4, and_self])
  | disallow =>
    rw [ho] at hp
    cases hp
    simp only [Out.ok.injEq, Value.mk.injEq]; constructor <;> (rintro ⟨h1, h2, h3, h4⟩; simp only [h1, h2, h3, h4, and_self])

theorem parse_ok (o : Opts) (idna : Idna) (s : List UInt8) (hs : Str s) (r : Parsed) :
    parse o idna s = .ok r ↔ s ≠ [] ∧ ∃ d u, Split s d u ∧ TextOk o.port u ∧ domainPart o idna s d u = .ok r := by
  by_cases hne : s = []
  · subst hne; simp [parse]
  · obtain ⟨d, u, hsp⟩ := split_exists s
    by_cases hu : TextOk o.port u
    · rw [parse_eq o idna s d u hs hne hsp hu]
      constructor
      · intro h; exact ⟨hne, d, u, hsp, hu, h⟩
      · rintro ⟨_, d', u', hsp', _, h⟩
        obtain ⟨rfl, rfl⟩ := split_unique _ _ _ _ _ hsp hsp'
        exact h
    · have := parse_not_ok o idna s d u hs hne hsp hu
      constructor
      · intro h
        rcases this with ⟨_, _, h'⟩ | ⟨_, _, h'⟩ <;> rw [h] at h' <;> cases h'
      · rintro ⟨_, d', u', hsp', hu', _⟩
        obtain ⟨rfl, rfl⟩ := split_unique _ _ _ _ _ hsp hsp'
        exact absurd hu' hu

/-- The outcome of `parse_str`. -/
theorem parseStr_ok (o : Opts) (idna : Idna) (s : List UInt8) (hs : Str s) (v : Value) :
    parseStr o idna s = .ok v ↔ s ≠ [] ∧ ∃ d, HostPort s d v.port ∧ PortOk o.port v.port ∧
      (v.domain = s ∧ (∃ x, AsIpv4 o d x v) ∨ AsName o idna d v) := by
  unfold parseStr
  rw [bind_ok_iff]
  simp only [parse_ok o idna s hs]
  constructor
  · rintro ⟨r, ⟨hne, d, u, hsp, hu, hr⟩, hc⟩
    refine ⟨hne, d, ?_⟩
    rw [domainPart_ok o idna s d u hu] at hr
    rcases hr with ⟨hp, x, p, hq, hd, h1, h2, h3, rfl⟩ | ⟨hp, h1, a, p, ha, hd, h2, h3, rfl⟩
    · have hpo := (textOk_iff o.port u p hd).1 hu
      rw [create_ok o _ hpo] at hc
      obtain ⟨hc1, hc2, hc3, hc4⟩ := hc
      simp only at hc1 hc2 hc3 hc4
      rw [hc2]
      refine ⟨(hostPort_iff s d p).2 ⟨u, hsp, hd⟩, hpo, .inl ⟨hc1, x, hp, hq, h1, h2, ?_, ?_⟩⟩
      · rw [isLocalV4_iff] at h3; exact h3
      · exact (fields_iff o v true (isLocalV4 x) _ _ (by simp) (isLocalV4_iff x)).2 ⟨hc3, hc4⟩
    · have hpo := (textOk_iff o.port u p hd).1 hu
      rw [create_ok o _ hpo] at hc
      obtain ⟨hc1, hc2, hc3, hc4⟩ := hc
      simp only at hc1 hc2 hc3 hc4
      rw [hc2]
      refine ⟨(hostPort_iff s d p).2 ⟨u, hsp, hd⟩, hpo, .inr ⟨hp, h1, ?_, ?_, ?_, ?_⟩⟩
      · rw [hc1]; exact ha
      · rw [hc1, ← localName_iff]; exact h2
      · rw [hc1, ← localName_iff]; exact h3
      · rw [hc1]; exact (fields_iff o v false (isLocalDomain a) _ _ (by simp) (localName_iff a)).2 ⟨hc3, hc4⟩
  · rintro ⟨hne, d, hsp, hpo, h⟩
    obtain ⟨u, hsp, hd⟩ := (hostPort_iff s d v.port).1 hsp
    have hu := (textOk_iff o.port u v.port hd).2 hpo
    rcases h with ⟨hv, x, hp, hq, h1, h2, h3, hf⟩ | ⟨hp, h1, ha, h2, h3, hf⟩
    · refine ⟨(s, v.port, true, localOf o (isLocalV4 x)), ⟨hne, d, u, hsp, hu, ?_⟩, ?_⟩
      · rw [domainPart_ok o idna s d u hu]
        exact .inl ⟨hp, x, v.port, hq, hd, h1, h2, by rw [isLocalV4_iff]; exact h3, rfl⟩
      · rw [create_ok o _ hpo]
        obtain ⟨f1, f2⟩ := (fields_iff o v true (isLocalV4 x) _ _ (by simp) (isLocalV4_iff x)).1 hf
        exact ⟨hv, rfl, f1, f2⟩
    · refine ⟨(v.domain, v.port, false, localOf o (isLocalDomain v.domain)), ⟨hne, d, u, hsp, hu, ?_⟩, ?_⟩
      · rw [domainPart_ok o idna s d u hu]
        exact .inr ⟨hp, h1, v.domain, v.port, ha, hd, by rw [localName_iff]; exact h2, by rw [localName_iff]; exact h3, rfl⟩
      · rw [create_ok o _ hpo]
        obtain ⟨f1, f2⟩ := (fields_iff o v false (isLocalDomain v.domain) _ _ (by simp) (localName_iff _)).1 hf
        exact ⟨rfl, rfl, f1, f2⟩

theorem parse_panic (o : Opts) (idna : Idna) (s : List UInt8) (hs : Str s) : parse o idna s ≠ .panic := by
  by_cases hne : s = []
  · subst hne; simp [parse]
  · obtain ⟨d, u, hsp⟩ := split_exists s
    by_cases hu : TextOk o.port u
    · rw [parse_eq o idna s d u hs hne hsp hu]
      exact domainPart_panic o idna s d u
    · rcases parse_not_ok o idna s d u hs hne hsp hu with ⟨_, _, h⟩ | ⟨_, _, h⟩ <;> rw [h] <;> simp

theorem parse_portOk (o : Opts) (idna : Idna) (s : List UInt8) (hs : Str s) (r : Parsed) (h : parse o idna s = .ok r) : PortOk o.port r.2.1 := by
  rw [parse_ok o idna s hs] at h
  obtain ⟨_, d, u, _, hu, h⟩ := h
  rw [domainPart_ok o idna s d u hu] at h
  rcases h with ⟨_, x, p, _, hd, _, _, _, rfl⟩ | ⟨_, _, a, p, _, hd, _, _, rfl⟩
  · exact (textOk_iff o.port u p hd).1 hu
  · exact (textOk_iff o.port u p hd).1 hu

theorem create_exists (o : Opts) (r : Parsed) (hp : PortOk o.port r.2.1) : ∃ v, create o r = .ok v :=
  ⟨⟨r.1, _, _, r.2.1⟩, (create_ok o r hp _).2 ⟨rfl, rfl, rfl, rfl⟩⟩

theorem parseStr_panic (o : Opts) (idna : Idna) (s : List UInt8) (hs : Str s) : parseStr o idna s ≠ .panic := by
  unfold parseStr
  rw [Ne, bind_panic_iff]
  rintro (h | ⟨r, h1, h2⟩)
  · exact parse_panic o idna s hs h
  · obtain ⟨v, hv⟩ := create_exists o r (parse_portOk o idna s hs r h1)
    rw [hv] at h2; cases h2

theorem validate_void (o : Opts) (idna : Idna) (s : List UInt8) (hs : Str s) : validateStr o idna s = (parseStr o idna s).void := by
  unfold validateStr parseStr
  cases h : parse o idna s with
  | ok r =>
    obtain ⟨v, hv⟩ := create_exists o r (parse_portOk o idna s hs r h)
    simp [hv, Out.void]
  | err e => rfl
  | panic => rfl

theorem parseStr_err (o : Opts) (idna : Idna) (s : List UInt8) (hs : Str s) (e : DomainError) (h : parseStr o idna s = .err e) : parse o idna s = .err e := by
  unfold parseStr at h
  cases hr : parse o idna s with
  | ok r =>
    obtain ⟨v, hv⟩ := create_exists o r (parse_portOk o idna s hs r hr)
    rw [hr, Out.bind_ok, hv] at h; cases h
  | err e' => rw [hr, Out.bind_err] at h; cases h; rfl
  | panic => rw [hr] at h; cases h

/-! ### Authority strings -/

theorem stripDot_stem (a : List UInt8) : Stem a (stripDot a) := (stem_iff _ _).2 rfl

theorem stem_unique (a b c : List UInt8) (h : Stem a b) (h' : Stem a c) : b = c := by
  rw [stem_iff] at h h'; rw [← h, ← h']

theorem nonFullyQualified_eq (v : Value) : nonFullyQualified v = .ok (stripDot v.domain) := by
  unfold nonFullyQualified isFullyQualified stripDot
  by_cases h : v.domain.getLast? = some (asc '.')
  · obtain ⟨c, hc⟩ := (getLast_dot _).1 h
    have hc' : v.domain = c ++ [asc '.'] := hc
    rw [if_pos h, if_pos (by simp [h])]
    rw [hc']
    have hb := Ip.boundary_byte c [] (asc '.') (by decide)
    have := strSlice_mid (ε := Empty) [] c [asc '.'] (by simp [Ip.isCharBoundary]) hb
    simpa using this
  · rw [if_neg h, if_neg (by simpa using h)]

/-- The text of a host and a port. -/
def join (d : List UInt8) : Option Nat → List UInt8
  | none => d
  | some n => d ++ asc ':' :: IntV.showNat n

theorem toUri_eq (v : Value) : toUri v = .ok (join (stripDot v.domain) v.port) := by
  unfold toUri
  rw [nonFullyQualified_eq]
  cases v.port <;> rfl

theorem hostPort_join (d : List UInt8) (hd : asc ':' ∉ d) (p : Option Nat) (hp : ∀ n, p = some n → n < 65536) : HostPort (join d p) d p := by
  cases p with
  | none => exact ⟨rfl, hd⟩
  | some n => exact ⟨IntV.showNat n, by simp [join, ascii, asc], Ip.portText_show n (hp n rfl)⟩

theorem join_str (d : List UInt8) (hd : Str d) (p : Option Nat) (hp : ∀ n, p = some n → n < 65536) : Str (join d p) := by
  cases p with
  | none => exact hd
  | some n =>
    apply Ip.str_append _ _ hd
    apply Ip.str_ascii
    intro b hb
    rcases List.mem_cons.1 hb with rfl | hb
    · decide
    · exact Ip.portText_ascii _ n (Ip.portText_show n (hp n rfl)) b hb

theorem hostPort_lt (s d : List UInt8) (p : Option Nat) (h : HostPort s d p) : ∀ n, p = some n → n < 65536 := by
  rintro n rfl
  obtain ⟨u, _, hu⟩ := h
  exact hu.2

theorem hostPort_unique (s d d' : List UInt8) (p p' : Option Nat) (h : HostPort s d p) (h' : HostPort s d' p') : d = d' ∧ p = p' := by
  obtain ⟨u, hs, hd⟩ := (hostPort_iff _ _ _).1 h
  obtain ⟨u', hs', hd'⟩ := (hostPort_iff _ _ _).1 h'
  obtain ⟨rfl, rfl⟩ := split_unique _ _ _ _ _ hs hs'
  refine ⟨rfl, ?_⟩
  cases u with
  | none => rw [hd, hd']
  | some t =>
    obtain ⟨n, rfl, hn⟩ := hd
    obtain ⟨m, rfl, hm⟩ := hd'
    have h1 := (Ip.parsePort_iff t n).2 hn
    have h2 := (Ip.parsePort_iff t m).2 hm
    rw [h1] at h2; exact h2

theorem idna_chars (idna : Idna) (laws : IdnaLaws idna) (s a : List UInt8) (h : idna s = some a) :
    asc ':' ∉ a ∧ asc '[' ∉ a ∧ ∀ b ∈ a, b.toNat < 128 := by
  have key := laws.symbols s a h
  refine ⟨fun hm => ?_, fun hm => ?_, fun b hb => ?_⟩
  · exact absurd (key _ hm) (by decide)
  · exact absurd (key _ hm) (by decide)
  · exact (by decide : ∀ b ∈ ascii "abcdefghijklmnopqrstuvwxyz0123456789-.", b.toNat < 128) b (key b hb)

/-- A converted name without its final dot is converted to itself and has the same labels. -/
theorem idna_stem (idna : Idna) (laws : IdnaLaws idna) (s a b : List UInt8) (h : idna s = some a) (hb : Stem a b) :
    idna b = some b ∧ Stem b b ∧ b ≠ [] := by
  rcases hb with rfl | ⟨rfl, hn⟩
  · obtain ⟨h1, h2⟩ := laws.root s b h
    exact ⟨h1, .inr ⟨rfl, h2⟩, laws.nonempty _ _ h1⟩
  · exact ⟨laws.again s a h, .inr ⟨rfl, hn⟩, laws.nonempty s a h⟩

theorem localName_stem (a b : List UInt8) (h : Stem a b) (h' : Stem b b) : LocalName b ↔ LocalName a := by
  unfold LocalName
  constructor
  · rintro ⟨c, hc, h2⟩
    rw [stem_unique _ _ _ hc h'] at h2
    exact ⟨b, h, h2⟩
  · rintro ⟨c, hc, h2⟩
    rw [stem_unique _ _ _ hc h] at h2
    exact ⟨b, h', h2⟩

theorem manyLabels_stem (a b : List UInt8) (h : Stem a b) (h' : Stem b b) : ManyLabels b ↔ ManyLabels a := by
  unfold ManyLabels
  constructor
  · rintro ⟨l, r, hc⟩
    refine ⟨l, r, ?_⟩
    rw [stem_unique _ _ _ hc h']; exact h
  · rintro ⟨l, r, hc⟩
    refine ⟨l, r, ?_⟩
    have := stem_unique _ _ _ hc h
    rw [this]; exact h'

end Verif.Domain
