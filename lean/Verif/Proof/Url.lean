import Verif.Spec.Url
import Verif.Proof.EmailRight

/-!
# Lemmas on the URL validators
-/

namespace Verif.Url

open Verif.Spec Verif.Spec.Ip Verif.Spec.Domain Verif.Spec.Host Verif.Spec.Url Verif.Host Verif.Domain

theorem lowered_colon (b : UInt8) : lowered b = asc ':' ↔ b = asc ':' := by
  revert b
  apply BaseN.forall_uint8
  decide +kernel

theorem startsWithLower_iff (s p : List UInt8) : startsWithLower s (p ++ [asc ':']) = true ↔ HasScheme p s := by
  unfold startsWithLower HasScheme
  rw [toLower_eq]
  simp only [Bool.and_eq_true, decide_eq_true_eq, beq_iff_eq, List.length_append, List.length_singleton]
  constructor
  · intro ⟨hl, h⟩
    refine ⟨s.take p.length, s.drop (p.length + 1), ?_, ?_⟩
    · have e : s.take (p.length + 1) = s.take p.length ++ [asc ':'] := by
        rw [List.take_add_one] at h ⊢
        have hg : s[p.length]? = some (s[p.length]'(by omega)) := List.getElem?_eq_getElem (by omega)
        rw [hg] at h ⊢
        simp only [Option.toList_some, List.map_append, List.map_cons, List.map_nil] at h ⊢
        have := List.append_inj_right' h rfl
        simp only [List.cons.injEq, and_true] at this
        rw [(lowered_colon _).mp this]
      have := (List.take_append_drop (p.length + 1) s).symm
      rw [e] at this
      simpa using this
    · have := congrArg (List.take p.length) h
      rw [← List.map_take, List.take_take, Nat.min_eq_left (by omega)] at this
      simpa using this
  · rintro ⟨a, rest, rfl, rfl⟩
    refine ⟨by simp, ?_⟩
    have : a ++ asc ':' :: rest = (a ++ [asc ':']) ++ rest := by simp
    rw [this, List.take_left' (by simp), List.map_append]
    simp [(lowered_colon _).mpr]

theorem hasScheme_unique (p q s : List UInt8) (hp : HasScheme p s) (hq : HasScheme q s) (hcp : asc ':' ∉ p) (hcq : asc ':' ∉ q) :
    p = q := by
  obtain ⟨a, r, rfl, rfl⟩ := hp
  obtain ⟨b, t, h, rfl⟩ := hq
  have key : ∀ a b r t : List UInt8, a ++ asc ':' :: r = b ++ asc ':' :: t → asc ':' ∉ a.map lowered → asc ':' ∉ b.map lowered → a = b := by
    intro a
    induction a with
    | nil =>
      intro b r t h _ hb
      cases b with
      | nil => rfl
      | cons x b =>
        simp only [List.nil_append, List.cons_append, List.cons.injEq] at h
        exact absurd (by simp [(lowered_colon x).mpr h.1.symm]) hb
    | cons x a ih =>
      intro b r t h ha hb
      cases b with
      | nil =>
        simp only [List.nil_append, List.cons_append, List.cons.injEq] at h
        exact absurd (by simp [(lowered_colon x).mpr h.1]) ha
      | cons y b =>
        simp only [List.cons_append, List.cons.injEq] at h
        simp only [List.map_cons, List.mem_cons, not_or] at ha hb
        rw [h.1, ih b r t h.2 ha.2 hb.2]
  rw [key a b r t h hcp hcq]

theorem scheme_unique (p q : Protocol) (s : List UInt8) (hp : HasScheme (schemeOf p) s) (hq : HasScheme (schemeOf q) s) : p = q := by
  have hc : ∀ p, asc ':' ∉ schemeOf p := by intro p; cases p <;> decide
  have := hasScheme_unique _ _ s hp hq (hc p) (hc q)
  revert this
  cases p <;> cases q <;> decide

theorem isLocalUrl {U : Type} (lib : Lib U) (u : U) (h : Host) (hh : lib.host u = some h) :
    ∃ b, isLocal lib u = .ok b ∧ (b = true ↔ LocalUrl lib u) := by
  unfold isLocal LocalUrl
  rw [hh]
  cases h with
  | domain d => exact ⟨_, rfl, by simp [LocalHost, localName_iff]⟩
  | ipv4 x => exact ⟨_, rfl, by simp [LocalHost, Ip.isLocalV4_iff]⟩
  | ipv6 x => exact ⟨_, rfl, by simp [LocalHost, Ip.isLocalV6_iff]⟩

/-- The local policy, when the URL has a host. -/
theorem handleLocal_cases {U : Type} (lib : Lib U) (loc : TriAllow) (u : U) (hh : ∃ h, lib.host u = some h) :
    (handleLocal lib loc u = .ok () ∧ LocalOk loc (LocalUrl lib u)) ∨
    (handleLocal lib loc u = .err .localMust ∧ loc = .must ∧ ¬ LocalUrl lib u) ∨
    (handleLocal lib loc u = .err .localDisallow ∧ loc = .disallow ∧ LocalUrl lib u) := by
  obtain ⟨h, hh⟩ := hh
  obtain ⟨b, hb, hl⟩ := isLocalUrl lib u h hh
  unfold handleLocal LocalOk
  rw [← hl]
  cases loc <;> cases b <;> simp [hb]

theorem index2 (s : List UInt8) (a b : List UInt8) :
    startsWithLowerMultiple s [a, b] = if startsWithLower s a then some 0 else if startsWithLower s b then some 1 else none := by
  simp only [startsWithLowerMultiple, List.findIdx?_cons, List.findIdx?_nil]
  cases startsWithLower s a <;> cases startsWithLower s b <;> rfl

theorem index3 (s : List UInt8) (a b c : List UInt8) :
    startsWithLowerMultiple s [a, b, c] =
      if startsWithLower s a then some 0 else if startsWithLower s b then some 1 else if startsWithLower s c then some 2 else none := by
  simp only [startsWithLowerMultiple, List.findIdx?_cons, List.findIdx?_nil]
  cases startsWithLower s a <;> cases startsWithLower s b <;> cases startsWithLower s c <;> rfl

theorem pre (p : Protocol) (s : List UInt8) : startsWithLower s (schemeOf p ++ [asc ':']) = true ↔ HasScheme (schemeOf p) s :=
  startsWithLower_iff s _

/-- The result of the part after the scheme. -/
def rest {U P : Type} (lib : Lib U) (loc : TriAllow) (s : List UInt8) (p : P) : Out UrlError (U × P) :=
  match lib.parse s with
  | none => .err .parseError
  | some url => (handleLocal lib loc url).bind fun _ => .ok (url, p)

theorem parseHttp_eq {U : Type} (lib : Lib U) (loc : TriAllow) (s : List UInt8) :
    (parseHttp lib loc s = rest lib loc s false ∧ HasScheme (schemeOf .http) s) ∨
    (parseHttp lib loc s = rest lib loc s true ∧ HasScheme (schemeOf .https) s) ∨
    (parseHttp lib loc s = .err .protocolError ∧ ¬ HasScheme (schemeOf .http) s ∧ ¬ HasScheme (schemeOf .https) s) := by
  unfold parseHttp
  rw [index2, show ascii "http:" = schemeOf .http ++ [asc ':'] from rfl, show ascii "https:" = schemeOf .https ++ [asc ':'] from rfl]
  rcases Classical.em (HasScheme (schemeOf .http) s) with h | h
  · exact .inl ⟨by rw [if_pos ((pre .http s).mpr h)]; rfl, h⟩
  · rw [if_neg (fun k => h ((pre .http s).mp k))]
    rcases Classical.em (HasScheme (schemeOf .https) s) with h' | h'
    · exact .inr (.inl ⟨by rw [if_pos ((pre .https s).mpr h')]; rfl, h'⟩)
    · exact .inr (.inr ⟨by rw [if_neg (fun k => h' ((pre .https s).mp k))], h, h'⟩)

theorem parseHttpFtp_eq {U : Type} (lib : Lib U) (loc : TriAllow) (s : List UInt8) :
    (∃ p, parseHttpFtp lib loc s = rest lib loc s p ∧ HasScheme (schemeOf p) s) ∨
    (parseHttpFtp lib loc s = .err .protocolError ∧ ∀ p, ¬ HasScheme (schemeOf p) s) := by
  unfold parseHttpFtp
  rw [index3, show ascii "http:" = schemeOf .http ++ [asc ':'] from rfl, show ascii "https:" = schemeOf .https ++ [asc ':'] from rfl,
    show ascii "ftp:" = schemeOf .ftp ++ [asc ':'] from rfl]
  rcases Classical.em (HasScheme (schemeOf .http) s) with h | h
  · exact .inl ⟨.http, by rw [if_pos ((pre .http s).mpr h)]; rfl, h⟩
  · rw [if_neg (fun k => h ((pre .http s).mp k))]
    rcases Classical.em (HasScheme (schemeOf .https) s) with h' | h'
    · exact .inl ⟨.https, by rw [if_pos ((pre .https s).mpr h')]; rfl, h'⟩
    · rw [if_neg (fun k => h' ((pre .https s).mp k))]
      rcases Classical.em (HasScheme (schemeOf .ftp) s) with h'' | h''
      · exact .inl ⟨.ftp, by rw [if_pos ((pre .ftp s).mpr h'')]; rfl, h''⟩
      · exact .inr ⟨by rw [if_neg (fun k => h'' ((pre .ftp s).mp k))], by intro p; cases p <;> assumption⟩

/-- The outcome after the scheme, for a URL with a host. `Sch p` says that the text has the scheme of `p`. -/
theorem rest_outcome {U P : Type} (lib : Lib U) (loc : TriAllow) (s : List UInt8) (q : P) (Sch : P → Prop) (hs : ∀ p, Sch p ↔ p = q)
    (hh : ∀ u, lib.parse s = some u → ∃ h, lib.host u = some h) :
    (∀ u p, rest lib loc s q = .ok (u, p) ↔ Sch p ∧ lib.parse s = some u ∧ LocalOk loc (LocalUrl lib u)) ∧
    (rest lib loc s q = .err .protocolError ↔ ∀ p, ¬ Sch p) ∧
    (rest lib loc s q = .err .parseError ↔ (∃ p, Sch p) ∧ lib.parse s = none) ∧
    (rest lib loc s q = .err .localMust ↔ (∃ p, Sch p) ∧ loc = .must ∧ ∃ u, lib.parse s = some u ∧ ¬ LocalUrl lib u) ∧
    (rest lib loc s q = .err .localDisallow ↔ (∃ p, Sch p) ∧ loc = .disallow ∧ ∃ u, lib.parse s = some u ∧ LocalUrl lib u) ∧
    rest lib loc s q ≠ .panic := by
  simp only [hs, rest]
  cases hp : lib.parse s with
  | none => simp
  | some u =>
    rcases handleLocal_cases lib loc u (hh u hp) with ⟨k, l⟩ | ⟨k, rfl, l⟩ | ⟨k, rfl, l⟩
    · simp only [k]
      cases loc <;> simp [LocalOk] at l ⊢
      · grind
      · grind
      · grind
    · simp only [k, Out.bind_err, LocalOk]
      simp [l]
    · simp only [k, Out.bind_err, LocalOk]
      simp [l]

end Verif.Url
