import Verif.Proof.EmailRight

/-! The outcome of the `email` validator. -/

namespace Verif.Email

open Verif.Spec Verif.Spec.Ip Verif.Spec.Domain Verif.Spec.Host Verif.Spec.Email Verif.StdIp
open Verif.Ip (Str str_cut str_append str_ascii boundary_cut strSlice strSliceFrom strSliceFrom_cut isCharBoundary)
open Verif.Domain (Idna bind_ok_iff bind_err_iff bind_panic_iff localName_iff manyLabels_iff isLocalDomain isAtLeastTwoLabelsDomain tells_iff tells_congr)
open Verif.Host (Host)

theorem checkLocal_ok (o : Opts) (f : Bool) : checkLocal o.loc (localOf o f) = .ok () ↔ LocalOk o.loc (f = true) := by
  unfold checkLocal localOf LocalOk
  cases o.loc <;> cases o.atl <;> cases f <;> simp

theorem checkLocal_err (o : Opts) (f : Bool) (e : EmailError) (h : checkLocal o.loc (localOf o f) = .err e) :
    e = .localMust ∧ o.loc = .must ∧ f = false ∨ e = .localDisallow ∧ o.loc = .disallow ∧ f = true := by
  revert h
  unfold checkLocal localOf
  cases o.loc <;> cases o.atl <;> cases f <;> simp <;> rintro rfl <;> rfl

theorem checkLocal_panic (opt : TriAllow) (f : Bool) : checkLocal opt f ≠ .panic := by
  unfold checkLocal; cases opt <;> cases f <;> simp

theorem checkLabels_ok (o : Opts) (f : Bool) (a : List UInt8) :
    checkLabels o.atl (localOf o f) a = .ok () ↔ LabelsOk o.atl (f = true) (ManyLabels a) := by
  rw [← manyLabels_iff]
  unfold checkLabels localOf LabelsOk
  cases o.atl <;> cases f <;> cases isAtLeastTwoLabelsDomain a <;> simp

theorem checkLabels_err (o : Opts) (f : Bool) (a : List UInt8) (e : EmailError) (h : checkLabels o.atl (localOf o f) a = .err e) :
    e = .atLeastTwoLabelsMust ∧ o.atl = .must ∧ f = false ∧ ¬ ManyLabels a ∨
    e = .atLeastTwoLabelsDisallow ∧ o.atl = .disallow ∧ f = false ∧ ManyLabels a := by
  rw [← manyLabels_iff]
  revert h
  unfold checkLabels localOf
  cases o.atl <;> cases f <;> cases isAtLeastTwoLabelsDomain a <;> simp <;> rintro rfl <;> rfl

theorem checkLabels_panic (opt : TriAllow) (f : Bool) (a : List UInt8) : checkLabels opt f a ≠ .panic := by
  unfold checkLabels; cases opt <;> cases f <;> cases isAtLeastTwoLabelsDomain a <;> simp

/-! ### Host and options -/

/-- The value of a host part. -/
def partOf (o : Opts) (x : Host) (start : Nat) (h : List UInt8) : HostPart :=
  ⟨x, localOf o (isLocalHost x), start + h.length, ((showHost x).length : Int) - h.length⟩

theorem hostOut_check {α : Type} (o : Opts) (x : Host) (start : Nat) (h : List UInt8) (k : HostPart → Out EmailError α) (v : α) :
    ((hostOut o x start h).bind fun hp => (checkLocal o.loc hp.isLocal).bind fun _ => k hp) = .ok v ↔
      HostOk o x ∧ k (partOf o x start h) = .ok v := by
  unfold hostOut HostOk
  cases x with
  | domain a =>
    simp only
    by_cases h1 : o.ip = .must
    · rw [if_pos h1]
      constructor
      · intro k; cases k
      · rintro ⟨⟨k, _⟩, _⟩; exact absurd h1 k
    · rw [if_neg h1, bind_ok_iff]
      simp only [bind_ok_iff]
      constructor
      · rintro ⟨hp, ⟨u, h2, h3⟩, u', h4, h5⟩
        cases h3
        refine ⟨⟨h1, ?_, ?_⟩, h5⟩
        · rw [← localName_iff]; exact (checkLabels_ok o _ a).1 h2
        · rw [← localName_iff]; exact (checkLocal_ok o _).1 h4
      · rintro ⟨⟨_, h2, h3⟩, h4⟩
        rw [← localName_iff] at h2 h3
        exact ⟨_, ⟨(), (checkLabels_ok o _ a).2 h2, rfl⟩, (), (checkLocal_ok o _).2 h3, h4⟩
  | ipv4 x =>
    simp only
    by_cases h1 : o.ip = .disallow
    · rw [if_pos h1]
      constructor
      · intro k; cases k
      · rintro ⟨⟨k, _⟩, _⟩; exact absurd h1 k
    · rw [if_neg h1]
      by_cases h2 : o.atl = .disallow
      · rw [if_pos h2]
        constructor
        · intro k; cases k
        · rintro ⟨⟨_, k, _⟩, _⟩; exact absurd h2 k
      · rw [if_neg h2, Out.bind_ok, bind_ok_iff]
        constructor
        · rintro ⟨u, h4, h5⟩
          exact ⟨⟨h1, h2, by rw [← isLocalHost_iff]; exact (checkLocal_ok o _).1 h4⟩, h5⟩
        · rintro ⟨⟨_, _, h3⟩, h4⟩
          rw [← isLocalHost_iff] at h3
          exact ⟨(), (checkLocal_ok o _).2 h3, h4⟩
  | ipv6 x =>
    simp only
    by_cases h1 : o.ip = .disallow
    · rw [if_pos h1]
      constructor
      · intro k; cases k
      · rintro ⟨⟨k, _⟩, _⟩; exact absurd h1 k
    · rw [if_neg h1]
      by_cases h2 : o.atl = .disallow
      · rw [if_pos h2]
        constructor
        · intro k; cases k
        · rintro ⟨⟨_, k, _⟩, _⟩; exact absurd h2 k
      · rw [if_neg h2, Out.bind_ok, bind_ok_iff]
        constructor
        · rintro ⟨u, h4, h5⟩
          exact ⟨⟨h1, h2, by rw [← isLocalHost_iff]; exact (checkLocal_ok o _).1 h4⟩, h5⟩
        · rintro ⟨⟨_, _, h3⟩, h4⟩
          rw [← isLocalHost_iff] at h3
          exact ⟨(), (checkLocal_ok o _).2 h3, h4⟩

theorem hostOut_panic (o : Opts) (x : Host) (start : Nat) (h : List UInt8) : hostOut o x start h ≠ .panic := by
  unfold hostOut
  cases x with
  | domain a =>
    simp only
    split
    · simp
    · rw [ne_eq, bind_panic_iff]
      rintro (k | ⟨_, _, k⟩)
      · exact checkLabels_panic _ _ _ k
      · cases k
  | ipv4 x =>
    simp only
    split
    · simp
    · split <;> simp
  | ipv6 x =>
    simp only
    split
    · simp
    · split <;> simp

theorem hostOut_len (o : Opts) (x : Host) (start : Nat) (h : List UInt8) (hp : HostPart) (hk : hostOut o x start h = .ok hp) :
    hp.len = start + h.length := by
  unfold hostOut at hk
  cases x with
  | domain a =>
    simp only at hk
    split at hk
    · cases hk
    · rw [bind_ok_iff] at hk
      obtain ⟨_, _, hk⟩ := hk
      cases hk; rfl
  | ipv4 x =>
    simp only at hk
    split at hk
    · cases hk
    · split at hk
      · cases hk
      · cases hk; rfl
  | ipv6 x =>
    simp only at hk
    split at hk
    · cases hk
    · split at hk
      · cases hk
      · cases hk; rfl

theorem not_true_false (b : Bool) (h : b = false) (P : Prop) (hP : b = true ↔ P) : ¬ P := by rw [← hP, h]; simp

theorem hostOut_blame {α : Type} (o : Opts) (x : Host) (start : Nat) (h : List UInt8) (k : HostPart → Out EmailError α) (e : EmailError)
    (he : ((hostOut o x start h).bind fun hp => (checkLocal o.loc hp.isLocal).bind fun _ => k hp) = .err e) :
    Blames o x e ∨ k (partOf o x start h) = .err e := by
  have hloc : ∀ e', checkLocal o.loc (localOf o (isLocalHost x)) = .err e' → Blames o x e' := by
    intro e' h'
    rcases checkLocal_err o _ e' h' with ⟨rfl, h1, h2⟩ | ⟨rfl, h1, h2⟩
    · exact .inr (.inr (.inl ⟨rfl, h1, not_true_false _ h2 _ (isLocalHost_iff x)⟩))
    · exact .inr (.inr (.inr (.inl ⟨rfl, h1, (isLocalHost_iff x).1 h2⟩)))
  unfold hostOut at he
  cases x with
  | domain a =>
    simp only at he
    by_cases h1 : o.ip = .must
    · rw [if_pos h1] at he; cases he
      exact .inl (.inl ⟨rfl, h1, a, rfl⟩)
    · rw [if_neg h1, bind_err_iff] at he
      rcases he with he | ⟨hp, h2, he⟩
      · rw [bind_err_iff] at he
        rcases he with he | ⟨_, _, he⟩
        · left
          rcases checkLabels_err o _ a e he with ⟨rfl, k1, k2, k3⟩ | ⟨rfl, k1, k2, k3⟩
          · exact .inr (.inr (.inr (.inr (.inl ⟨rfl, k1, not_true_false _ k2 _ (isLocalHost_iff _), a, rfl, k3⟩))))
          · exact .inr (.inr (.inr (.inr (.inr ⟨rfl, k1, .inr ⟨not_true_false _ k2 _ (isLocalHost_iff _), a, rfl, k3⟩⟩))))
        · cases he
      · rw [bind_ok_iff] at h2
        obtain ⟨_, _, h2⟩ := h2
        cases h2
        rw [bind_err_iff] at he
        rcases he with he | ⟨_, _, he⟩
        · exact .inl (hloc e he)
        · exact .inr he
  | ipv4 x =>
    simp only at he
    by_cases h1 : o.ip = .disallow
    · rw [if_pos h1] at he; cases he
      exact .inl (.inr (.inl ⟨rfl, h1, by rintro ⟨a, h⟩; cases h⟩))
    · rw [if_neg h1] at he
      by_cases h2 : o.atl = .disallow
      · rw [if_pos h2] at he; cases he
        exact .inl (.inr (.inr (.inr (.inr (.inr ⟨rfl, h2, .inl (by rintro ⟨a, h⟩; cases h)⟩)))))
      · rw [if_neg h2, Out.bind_ok, bind_err_iff] at he
        rcases he with he | ⟨_, _, he⟩
        · exact .inl (hloc e he)
        · exact .inr he
  | ipv6 x =>
    simp only at he
    by_cases h1 : o.ip = .disallow
    · rw [if_pos h1] at he; cases he
      exact .inl (.inr (.inl ⟨rfl, h1, by rintro ⟨a, h⟩; cases h⟩))
    · rw [if_neg h1] at he
      by_cases h2 : o.atl = .disallow
      · rw [if_pos h2] at he; cases he
        exact .inl (.inr (.inr (.inr (.inr (.inr ⟨rfl, h2, .inl (by rintro ⟨a, h⟩; cases h)⟩)))))
      · rw [if_neg h2, Out.bind_ok, bind_err_iff] at he
        rcases he with he | ⟨_, _, he⟩
        · exact .inl (hloc e he)
        · exact .inr he

/-! ### The side after the `@` -/

theorem lead_str (c : Allow) (limit : Nat) (s : List UInt8) (hs : Str s) (oc : Option (List UInt8)) (rest : List UInt8) (h : Lead c limit s oc rest) :
    Str rest := by
  have := h.text
  cases oc with
  | none => rw [this] at hs; exact hs
  | some cc =>
    rw [this, comment_some] at hs
    exact (str_cut (asc '(' :: cc) rest (asc ')') (by decide) hs).2

theorem host_tail_str (idna : Idna) (h tail : List UInt8) (x : Host) (hx : HostText idna h x) (ht : TailStart x tail) (hs : Str (h ++ tail)) : Str tail := by
  cases hx with
  | ipv4 =>
    rename_i x
    exact (str_cut (ascii "[" ++ x.text) tail (asc ']') (by decide) (by simpa [ascii, asc] using hs)).2
  | ipv6 hv =>
    rename_i t x
    exact (str_cut (ascii "[IPv6:" ++ t) tail (asc ']') (by decide) (by simpa [ascii, asc] using hs)).2
  | domain =>
    rename_i a _ _ _ _ _
    rcases ht ⟨a, rfl⟩ with rfl | k
    · exact hs |> fun _ => str_ascii [] (by simp)
    · cases tail with
      | nil => cases k
      | cons b tail =>
        simp only [List.head?_cons, Option.some.injEq] at k
        subst k
        exact str_append [asc '('] tail (str_ascii _ (by decide)) (str_cut h tail _ (by decide) hs).2

theorem host_nonempty (idna : Idna) (h : List UInt8) (x : Host) (hx : HostText idna h x) : h ≠ [] ∧ h.head? ≠ some (asc '(') := by
  cases hx with
  | ipv4 => exact ⟨by simp [ascii], by simp [ascii, asc]⟩
  | ipv6 => exact ⟨by simp [ascii], by simp [ascii, asc]⟩
  | domain h1 h2 h3 =>
    refine ⟨h1, ?_⟩
    cases h with
    | nil => exact absurd rfl h1
    | cons b h => intro k; exact h3 (by simp at k; simp [k])

theorem tail_start (o : Opts) (c4 : Option (List UInt8)) (tail : List UInt8) (h : Tail o c4 tail) : tail = [] ∨ tail.head? = some (asc '(') := by
  obtain ⟨_, _, junk, rfl, h⟩ := h
  cases c4 with
  | none => exact .inl (by rw [h rfl]; rfl)
  | some c => rw [comment_some]; exact .inr rfl

/-- The side after the `@` without the first comment. -/
def hostSide (o : Opts) (idna : Idna) (t : List UInt8) (offset : Int) (start : Nat) (c3 : Option (List UInt8)) :
    Out EmailError (Host × Bool × Option (List UInt8) × Option (List UInt8)) :=
  (idx t start).bind fun b => (hostBranch o idna t start b).bind fun h =>
    (checkLocal o.loc h.isLocal).bind fun _ =>
      if offset + h.offset > 0 ∧ (t.length : Int) + (offset + h.offset) > 255 then .err .invalid
      else (afterDomain o.comment t h.len).bind fun comment4 => .ok (h.host, h.isLocal, c3, comment4)

theorem domainSide_eq (o : Opts) (idna : Idna) (t : List UInt8) (offset : Int) :
    domainSide o idna t offset = if t.length > 255 then .err .invalid
      else (leadComment o.comment 253 t).bind fun r => hostSide o idna t offset r.1 r.2 := by
  unfold domainSide hostSide hostBranch
  rfl

/-- What remains after the options are checked. -/
def finishSide (o : Opts) (t : List UInt8) (offset : Int) (c3 : Option (List UInt8)) (h : HostPart) :
    Out EmailError (Host × Bool × Option (List UInt8) × Option (List UInt8)) :=
  if offset + h.offset > 0 ∧ (t.length : Int) + (offset + h.offset) > 255 then .err .invalid
  else (afterDomain o.comment t h.len).bind fun comment4 => .ok (h.host, h.isLocal, c3, comment4)

theorem hostSide_text (o : Opts) (idna : Idna) (p h tail : List UInt8) (x : Host) (hx : HostText idna h x) (ht : TailStart x tail)
    (hs : Str (h ++ tail)) (offset : Int) (c3 : Option (List UInt8)) :
    hostSide o idna (p ++ (h ++ tail)) offset p.length c3 =
      (hostOut o x p.length h).bind fun hp => (checkLocal o.loc hp.isLocal).bind fun _ => finishSide o (p ++ (h ++ tail)) offset c3 hp := by
  have hne := (host_nonempty idna h x hx).1
  cases h with
  | nil => exact absurd rfl hne
  | cons b h =>
    unfold hostSide
    rw [List.cons_append, idx_cut _ _ _ _ rfl, Out.bind_ok]
    have := host_text o idna p (b :: h) tail x hx hs ht b rfl
    rw [List.cons_append] at this
    rw [this]
    rfl

theorem finishSide_ok (o : Opts) (p h tail : List UInt8) (x : Host) (hs : Str tail) (offset : Int) (c3 : Option (List UInt8))
    (r : Host × Bool × Option (List UInt8) × Option (List UInt8)) :
    finishSide o (p ++ (h ++ tail)) offset c3 (partOf o x p.length h) = .ok r ↔
      ∃ c4, r = (x, localOf o (isLocalHost x), c3, c4) ∧ Tail o c4 tail ∧
        (((showHost x).length : Int) + offset ≤ h.length ∨ ((p ++ showHost x ++ tail).length : Int) + offset ≤ 255) := by
  unfold finishSide partOf
  simp only
  have e : (p ++ (h ++ tail)) = (p ++ h) ++ tail := by simp
  split
  · rename_i k
    constructor
    · intro h; cases h
    · rintro ⟨_, _, _, k1⟩
      simp only [List.length_append, Int.natCast_add] at k k1
      omega
  · rename_i k
    rw [bind_ok_iff]
    have hl : p.length + h.length = (p ++ h).length := by simp
    rw [e, hl]
    constructor
    · rintro ⟨c4, h1, h2⟩
      cases h2
      refine ⟨c4, rfl, (tail_ok o _ tail hs c4).1 h1, ?_⟩
      simp only [List.length_append, Int.natCast_add] at k ⊢
      omega
    · rintro ⟨c4, rfl, h1, _⟩
      exact ⟨c4, (tail_ok o _ tail hs c4).2 h1, rfl⟩

theorem domainSide_ok (o : Opts) (idna : Idna) (t : List UInt8) (hs : Str t) (hne : t ≠ []) (saved : Nat) (x : Host) (l : Bool)
    (c3 c4 : Option (List UInt8)) :
    domainSide o idna t (-(saved : Int)) = .ok (x, l, c3, c4) ↔
      (∃ h tail, DomainText o idna saved t c3 x c4 h tail) ∧ l = localOf o (isLocalHost x) := by
  rw [domainSide_eq]
  by_cases h255 : t.length > 255
  · rw [if_pos h255]
    constructor
    · intro h; cases h
    · rintro ⟨⟨h, tail, k⟩, _⟩
      have := k.short
      omega
  · rw [if_neg h255, bind_ok_iff]
    constructor
    · rintro ⟨⟨n, c⟩, h1, h2⟩
      rw [lead_ok _ _ _ hs hne] at h1
      obtain ⟨rest, hl, rfl⟩ := h1
      have hrs := lead_str _ _ _ hs _ _ hl
      have ht := hl.text
      simp only at h2
      cases hrest : rest with
      | nil => exact absurd hrest hl.nonempty
      | cons b r =>
        have hfound : ∃ x' h tail, rest = h ++ tail ∧ HostText idna h x' ∧ TailStart x' tail := by
          have h2' := h2
          unfold hostSide at h2'
          rw [ht, hrest, idx_cut _ _ _ _ rfl, Out.bind_ok, bind_ok_iff] at h2'
          obtain ⟨hp, h3, _⟩ := h2'
          rw [← hrest] at h3
          obtain ⟨h, tail, k1, k2, k3⟩ := host_found o idna _ rest b (by rw [hrest]; rfl) hrs hp h3
          exact ⟨_, h, tail, k1, k2, k3⟩
        obtain ⟨x', h, tail, hr, hx, hts⟩ := hfound
        rw [hr] at ht hrs
        rw [ht, hostSide_text o idna _ h tail x' hx hts hrs, hostOut_check, finishSide_ok _ _ _ _ _ (host_tail_str idna h tail x' hx hts hrs)] at h2
        obtain ⟨hok, c4', he, htl, hlen⟩ := h2
        cases he
        refine ⟨⟨h, tail, ?_, hl.closed, hl.allowed, hx, hok, htl, by omega, ?_⟩, rfl⟩
        · rw [ht]; simp
        · rcases hlen with k | k
          · left; omega
          · right; omega
    · rintro ⟨⟨h, tail, k⟩, rfl⟩
      have hh := host_nonempty idna h x k.host
      have ht : t = comment c3 ++ (h ++ tail) := by rw [k.text]; simp
      have hl : Lead o.comment 253 t c3 (h ++ tail) := by
        refine ⟨ht, by simp [hh.1], k.closed, ?_, k.allowed, ?_⟩
        · intro _
          rw [List.head?_append]
          cases h with
          | nil => exact absurd rfl hh.1
          | cons b h => simpa using hh.2
        · rintro cc rfl
          have := k.short
          rw [ht] at this
          have hpos : 0 < h.length := List.length_pos_iff.2 hh.1
          simp [comment, ascii] at this
          omega
      have hts : TailStart x tail := fun _ => tail_start o c4 tail k.after
      refine ⟨((comment c3).length, c3), (lead_ok _ _ _ hs hne _ _).2 ⟨_, hl, rfl⟩, ?_⟩
      have hrs := lead_str _ _ _ hs _ _ hl
      simp only
      rw [ht, hostSide_text o idna _ h tail x k.host hts hrs, hostOut_check, finishSide_ok _ _ _ _ _ (host_tail_str idna h tail x k.host hts hrs)]
      refine ⟨k.ok, c4, rfl, k.after, ?_⟩
      rcases k.printed with k | k
      · left; omega
      · right; omega

theorem afterDomain_panic (c : Allow) (p tail : List UInt8) (hs : Str tail) : afterDomain c (p ++ tail) p.length ≠ .panic := by
  intro k
  rcases tail_other c p tail hs with ⟨c4, h⟩ | h | ⟨h, _⟩ <;> rw [h] at k <;> cases k

theorem domainSide_panic (o : Opts) (idna : Idna) (t : List UInt8) (hs : Str t) (hne : t ≠ []) (offset : Int) :
    domainSide o idna t offset ≠ .panic := by
  rw [domainSide_eq]
  split
  · simp
  · rw [ne_eq, bind_panic_iff]
    rintro (h | ⟨⟨n, c⟩, h1, h2⟩)
    · exact lead_panic _ _ _ hs hne h
    · rw [lead_ok _ _ _ hs hne] at h1
      obtain ⟨rest, hl, rfl⟩ := h1
      have hrs := lead_str _ _ _ hs _ _ hl
      have ht := hl.text
      simp only at h2
      cases hrest : rest with
      | nil => exact absurd hrest hl.nonempty
      | cons b r =>
        rcases host_other o idna (comment c) rest b (by rw [hrest]; rfl) hrs with ⟨x', h, tail, hr, hx, hts⟩ | k
        · rw [hr] at ht hrs
          have hst := host_tail_str idna h tail x' hx hts hrs
          rw [ht, hostSide_text o idna _ h tail x' hx hts hrs, bind_panic_iff] at h2
          rcases h2 with h2 | ⟨hp, h2, h3⟩
          · exact hostOut_panic _ _ _ _ h2
          · rw [bind_panic_iff] at h3
            rcases h3 with h3 | ⟨_, _, h3⟩
            · exact checkLocal_panic _ _ h3
            · have hlen : hp.len = (comment c ++ h).length := by
                have := hostOut_len o x' _ h hp h2
                rw [this]; simp
              unfold finishSide at h3
              split at h3
              · cases h3
              · rw [bind_panic_iff] at h3
                rcases h3 with h3 | ⟨_, _, h3⟩
                · rw [hlen, ← List.append_assoc] at h3
                  exact afterDomain_panic _ _ _ hst h3
                · cases h3
        · unfold hostSide at h2
          rw [ht, hrest, idx_cut _ _ _ _ rfl, Out.bind_ok] at h2
          rw [hrest] at k
          rcases k with k | ⟨k, _⟩ | ⟨k, _⟩ | ⟨k, _⟩ <;> rw [k] at h2 <;> cases h2

end Verif.Email
