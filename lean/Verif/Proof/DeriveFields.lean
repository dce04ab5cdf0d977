import Verif.Proof.Derive

/-!
# The fields that generated code fills and reads
-/

namespace Verif.Derive

open Verif.Attr Verif.Spec.Derive

variable {τ φ κ : Type} [DecidableEq κ]

theorem intType_iff (signed : Bool) (ty : String) (w : IntV.Width) :
    (if signed then signedType ty else unsignedType ty) = some w ↔ ty = intName signed w := by
  constructor
  · intro h
    cases signed
    · simp only [Bool.false_eq_true, if_false, unsignedType] at h
      split at h <;> cases h <;> rfl
    · simp only [if_true, signedType] at h
      split at h <;> cases h <;> rfl
  · rintro rfl
    cases signed <;> cases w <;> rfl

theorem ipHandler_ok (M : Macro τ φ κ) (v : Validator) (n : String) (t : TypeEnum) (d : Data) (m : Meta τ) (p : Plan φ κ) (hd : DistinctNames d)
    (hn : n ≠ "port") :
    ipHandler M v n t d m = .ok p ↔ ∃ a, ipAttribute M.env128 m = .ok a ∧ NamedOrOne (ipFields n a) d ∧ p = .ip v a := by
  simp only [ipHandler, bind_ok_iff, lift_ok]
  cases d with
  | struct f =>
    simp only [bind_ok_iff]
    constructor
    · rintro ⟨a, h, u, hs, e⟩
      exact ⟨a, h, (ipShape_ok n t a f u hd hn).1 hs, by cases e; rfl⟩
    · rintro ⟨a, h, hs, rfl⟩
      exact ⟨a, h, (), (ipShape_ok n t a f () hd hn).2 hs, rfl⟩
  | enum => simp [NamedOrOne, OneUnnamed, Named]
  | union => simp [NamedOrOne, OneUnnamed, Named]

theorem agree_one (x : String) (t : TypeEnum) (d : Data) (h : NamedOrOne [x] d) :
    Matches (.tuple t) d ∧ ∀ n ∈ ["0"], HasField d n := by
  rcases h with ⟨-, h⟩ | ⟨h, -⟩
  · refine ⟨h, fun n hn => ?_⟩
    simp only [List.mem_singleton] at hn
    exact .inl ⟨hn, h⟩
  · exact absurd rfl h

theorem agree_named (fs : List (String × TypeEnum)) (r names : List String) (d : Data) (h : Named names d) (he : fs.map Prod.fst = names)
    (hr : ∀ n ∈ r, n ∈ names) : Matches (.record fs) d ∧ ∀ n ∈ r, HasField d n := by
  subst he
  obtain ⟨gs, rfl, hp⟩ := h
  exact ⟨⟨gs, rfl, hp⟩, fun n hn => .inr ⟨gs, rfl, hp.mem_iff.2 (hr n hn)⟩⟩

theorem agree_many (fs : List (String × TypeEnum)) (r names : List String) (d : Data) (h : NamedOrOne names d) (hl : names.length ≠ 1)
    (he : fs.map Prod.fst = names) (hr : ∀ n ∈ r, n ∈ names) : Matches (.record fs) d ∧ ∀ n ∈ r, HasField d n := by
  rcases h with ⟨h, -⟩ | ⟨-, h⟩
  · exact absurd h hl
  · exact agree_named fs r names d h he hr

theorem filled_domain (a : DomainAttribute) (d : Data) (h : NamedOrOne (domainFields a) d) :
    Matches (domainFilled a) d ∧ ∀ n ∈ domainRead a, HasField d n := by
  obtain ⟨i, l, p, t, c, s, r⟩ := a
  cases i <;> cases l <;> cases t <;> cases p <;>
    first
      | exact agree_one "domain" _ d h
      | exact agree_many _ _ _ d h (by simp [domainFields, TellsLocal]) rfl (by simp [domainRead, domainFields, TellsLocal])

theorem filled_host (a : HostAttribute) (d : Data) (h : NamedOrOne (hostFields a) d) :
    Matches (hostFilled a) d ∧ ∀ n ∈ hostRead a, HasField d n := by
  obtain ⟨l, p, t, s, r⟩ := a
  cases l <;> cases t <;> cases p <;>
    first
      | exact agree_one "host" _ d h
      | exact agree_many _ _ _ d h (by simp [hostFields, TellsLocal]) rfl (by simp [hostRead, hostFields, TellsLocal])

theorem filled_ip (x : String) (ty : TypeEnum) (a : IpAttribute) (d : Data) (h : NamedOrOne (ipFields x a) d) :
    Matches (ipFilled x ty a) d ∧ ∀ n ∈ ipRead x a, HasField d n := by
  obtain ⟨l, p, s, r⟩ := a
  cases p <;>
    first
      | exact agree_one x _ d h
      | exact agree_many _ _ _ d h (by simp [ipFields]) rfl (by simp [ipRead, ipFields])

theorem filled_email (a : EmailAttribute) (d : Data) (h : Named (emailFields a) d) :
    Matches (emailFilled a) d ∧ ∀ n ∈ emailRead a, HasField d n := by
  obtain ⟨c, i, l, t, n, k, s, r⟩ := a
  cases c <;> cases i <;> cases l <;> cases t <;> exact agree_named _ _ _ d h rfl (by simp [emailRead, emailFields, TellsLocal])

theorem filled_tuple {t : TypeEnum} {d : Data} (h : OneUnnamed d) : Matches (.tuple t) d ∧ ∀ n ∈ ["0"], HasField d n := by
  refine ⟨h, fun n hn => ?_⟩
  simp only [List.mem_singleton] at hn
  exact .inl ⟨hn, h⟩

theorem follows_matches (i : Item) (d : Data) (h : Follows i d) : Matches i d := by
  cases i with
  | tuple t => obtain ⟨ty, -, rfl⟩ := h; exact ⟨ty, rfl⟩
  | record fs =>
    obtain ⟨gs, hg, -, rfl⟩ := h
    exact ⟨gs, rfl, by rw [hg]⟩

theorem matches_one (x : String) (t : TypeEnum) (d : Data) (h : Matches (.tuple t) d) : NamedOrOne [x] d := .inl ⟨rfl, h⟩

theorem matches_many (fs : List (String × TypeEnum)) (names : List String) (d : Data) (h : Matches (.record fs) d)
    (he : fs.map Prod.fst = names) (hl : names.length ≠ 1) : NamedOrOne names d := .inr ⟨hl, he ▸ h⟩

theorem named_distinct (names : List String) (d : Data) (hn : names.Nodup) (h : Named names d) : DistinctNames d := by
  rintro fs rfl
  obtain ⟨gs, e, hp⟩ := h
  cases e
  exact hp.nodup_iff.2 hn

theorem namedOrOne_distinct (names : List String) (d : Data) (hn : names.Nodup) (h : NamedOrOne names d) : DistinctNames d := by
  rcases h with ⟨-, ty, rfl⟩ | ⟨-, h⟩
  · rintro fs e
    cases e
  · exact named_distinct names d hn h

theorem domainFields_nodup (a : DomainAttribute) : (domainFields a).Nodup := by
  obtain ⟨i, l, p, t, c, s, r⟩ := a
  cases i <;> cases l <;> cases t <;> cases p <;> simp [domainFields, TellsLocal]

theorem hostFields_nodup (a : HostAttribute) : (hostFields a).Nodup := by
  obtain ⟨l, p, t, s, r⟩ := a
  cases l <;> cases t <;> cases p <;> simp [hostFields, TellsLocal]

theorem ipFields_nodup (x : String) (hx : x ≠ "port") (a : IpAttribute) : (ipFields x a).Nodup := by
  obtain ⟨l, p, s, r⟩ := a
  cases p <;> simp [ipFields, hx]

theorem emailFields_nodup (a : EmailAttribute) : (emailFields a).Nodup := by
  obtain ⟨c, i, l, t, n, k, s, r⟩ := a
  cases c <;> cases l <;> cases t <;> simp [emailFields, TellsLocal]

theorem domain_matches (a : DomainAttribute) (d : Data) (h : Matches (domainFilled a) d) : NamedOrOne (domainFields a) d := by
  obtain ⟨i, l, p, t, c, s, r⟩ := a
  cases i <;> cases l <;> cases t <;> cases p <;>
    first
      | exact matches_one "domain" _ d h
      | exact matches_many _ _ d h rfl (by simp [domainFields, TellsLocal])

theorem host_matches (a : HostAttribute) (d : Data) (h : Matches (hostFilled a) d) : NamedOrOne (hostFields a) d := by
  obtain ⟨l, p, t, s, r⟩ := a
  cases l <;> cases t <;> cases p <;>
    first
      | exact matches_one "host" _ d h
      | exact matches_many _ _ d h rfl (by simp [hostFields, TellsLocal])

theorem ip_matches (x : String) (ty : TypeEnum) (a : IpAttribute) (d : Data) (h : Matches (ipFilled x ty a) d) : NamedOrOne (ipFields x a) d := by
  obtain ⟨l, p, s, r⟩ := a
  cases p <;>
    first
      | exact matches_one x _ d h
      | exact matches_many _ _ d h rfl (by simp [ipFields])

theorem email_matches (a : EmailAttribute) (d : Data) (h : Matches (emailFilled a) d) : Named (emailFields a) d := by
  obtain ⟨c, i, l, t, n, k, s, r⟩ := a
  cases c <;> cases i <;> cases l <;> cases t <;> exact h

theorem tupleOne_err (f : Fields) (i j : Item) (h : tupleOne f i = .err (.shape j)) : j = i := by
  cases f with
  | unnamed tys => simp only [tupleOne] at h; split at h <;> cases h; rfl
  | named _ => cases h; rfl
  | unit => cases h; rfl

theorem namedOnly_err (f : Fields) (n : Nat) (names : List String) (i j : Item) (h : namedOnly f n names i = .err (.shape j)) : j = i := by
  cases f with
  | named fs =>
    simp only [namedOnly] at h
    split at h
    · cases h; rfl
    · split at h <;> cases h; rfl
  | unnamed _ => cases h; rfl
  | unit => cases h; rfl

theorem single_err (d : Data) (t : TypeEnum) (j : Item) (h : single d t = .err (.shape j)) : j = .tuple t := by
  cases d with
  | struct f => exact tupleOne_err f _ j h
  | enum => cases h; rfl
  | union => cases h; rfl

theorem twoNamed_err (d : Data) (i j : Item) (h : twoNamed d i = .err (.shape j)) : j = i := by
  cases d with
  | struct f =>
    cases f with
    | named fs => simp only [twoNamed] at h; split at h <;> cases h; rfl
    | unnamed _ => cases h; rfl
    | unit => cases h; rfl
  | enum => cases h; rfl
  | union => cases h; rfl

theorem twoNamed_ok (d : Data) (i : Item) (u : Unit) : twoNamed d i = .ok u ↔ ∃ f g, d = .struct (.named [f, g]) := by
  cases d with
  | struct f =>
    cases f with
    | named fs =>
      rcases fs with _ | ⟨f, _ | ⟨g, _ | ⟨h, fs⟩⟩⟩ <;> simp [twoNamed]
    | unnamed _ => simp [twoNamed]
    | unit => simp [twoNamed]
  | enum => simp [twoNamed]
  | union => simp [twoNamed]

theorem domainShape_err (a : DomainAttribute) (f : Fields) (j : Item) (h : domainShape a f = .err (.shape j)) : j = domainFilled a := by
  obtain ⟨i, l, p, t, c, s, r⟩ := a
  cases i <;> cases l <;> cases t <;> cases p <;> first | exact tupleOne_err _ _ _ h | exact namedOnly_err _ _ _ _ _ h

theorem hostShape_err (a : HostAttribute) (f : Fields) (j : Item) (h : hostShape a f = .err (.shape j)) : j = hostFilled a := by
  obtain ⟨l, p, t, s, r⟩ := a
  cases l <;> cases t <;> cases p <;> first | exact tupleOne_err _ _ _ h | exact namedOnly_err _ _ _ _ _ h

theorem ipShape_err (x : String) (ty : TypeEnum) (a : IpAttribute) (f : Fields) (j : Item) (h : ipShape x ty a f = .err (.shape j)) :
    j = ipFilled x ty a := by
  obtain ⟨l, p, s, r⟩ := a
  cases p <;> first | exact tupleOne_err _ _ _ h | exact namedOnly_err _ _ _ _ _ h

theorem emailShape_err (a : EmailAttribute) (f : Fields) (j : Item) (h : emailShape a f = .err (.shape j)) : j = emailFilled a := by
  obtain ⟨c, i, l, t, n, k, s, r⟩ := a
  cases c <;> cases i <;> cases l <;> cases t <;> exact namedOnly_err _ _ _ _ _ h

end Verif.Derive
