import Verif.Proof.Ip

/-! Outcomes of the `ipv4`, `ipv6` and `ip` validators. -/

namespace Verif.Ip

open Verif.StdIp Verif.Spec.Ip Verif.Spec

theorem v4Input_ne_nil (s : List UInt8) (x : V4) (p : Option Nat) (h : V4Input s x p) : s ≠ [] := by
  cases p with
  | none => exact fun hs => text_ne_nil x (h.symm.trans hs)
  | some n => obtain ⟨u, rfl, _⟩ := h; simp [asc_colon]

theorem v4Input_head (s : List UInt8) (x : V4) (p : Option Nat) (h : V4Input s x p) :
    ∃ r, s = dec x.a.toNat ++ asc '.' :: r := by
  obtain ⟨r, hr⟩ := text_split x
  cases p with
  | none => exact ⟨r, h.trans hr⟩
  | some n => obtain ⟨u, rfl, _⟩ := h; exact ⟨r ++ ascii ":" ++ u, by rw [hr]; simp⟩

theorem v4_not_v6 (s : List UInt8) (x : V4) (p : Option Nat) (segs : List Nat) (h : V4Input s x p) (h6 : V6Text s segs) : False := by
  obtain ⟨r, h⟩ := v4Input_head s x p h
  obtain ⟨t, r', h6, ht⟩ := v6Text_colon s segs h6
  rw [h6] at h
  obtain ⟨_, h2⟩ := split_unique (· ∈ Hex.symbols .any) t _ _ _ h ht (dec_hex _ x.a.toNat_lt)
    (by
      intro b hb
      simp only [List.head?_cons, Option.some.injEq] at hb
      subst hb; exact colon_not_hex)
    (by
      intro b hb
      simp only [List.head?_cons, Option.some.injEq] at hb
      subst hb; exact dot_not_hex)
  simp only [List.cons.injEq] at h2
  exact absurd h2.1 (by decide)

theorem v4Input_not_bracket (s : List UInt8) (x : V4) (p : Option Nat) (h : V4Input s x p) : s.head? ≠ some (asc '[') := by
  obtain ⟨r, rfl⟩ := v4Input_head s x p h
  have ht := dec_table ⟨_, x.a.toNat_lt⟩
  have hd := dec_digits _ x.a.toNat_lt
  simp only at ht
  cases hdec : dec x.a.toNat with
  | nil => exact absurd hdec ht.1
  | cons b t =>
    simp only [List.cons_append, List.head?_cons, ne_eq, Option.some.injEq]
    rintro rfl
    rw [hdec] at hd
    exact absurd (hd (asc '[') (by simp)) (by decide)

theorem v6Text_not_bracket (s : List UInt8) (segs : List Nat) (h : V6Text s segs) : s.head? ≠ some (asc '[') := by
  intro hh
  exact (v6Text_no_bracket s segs h).1 (List.mem_of_head? hh)

theorem bracketInput_head (s : List UInt8) (x : V6) (p : Option Nat) (h : BracketInput s x p) : s.head? = some (asc '[') := by
  cases p with
  | none => obtain ⟨t, rfl, _⟩ := h; rfl
  | some n => obtain ⟨t, u, rfl, _⟩ := h; rfl

theorem v6Input_iff (s : List UInt8) (x : V6) (p : Option Nat) :
    V6Input s x p ↔ (p = none ∧ V6Text s x.segs) ∨ BracketInput s x p := by
  cases p with
  | none => simp [V6Input, BracketInput]
  | some n => simp [V6Input, BracketInput]

theorem parseIpv4_ok (loc port : TriAllow) (s : List UInt8) (hs : Str s) (x : V4) (p : Option Nat) (l : Bool) :
    parseIpv4 loc port s = .ok (x, p, l) ↔
      V4Input s x p ∧ PortOk port p ∧ LocalOk loc (isLocalV4 x = true) ∧ l = localOf loc (isLocalV4 x) := by
  unfold parseIpv4
  split
  · rename_i h
    constructor
    · intro h; cases h
    · rintro ⟨hi, _⟩; exact absurd h (v4Input_ne_nil s x p hi)
  · exact v4Part_ok loc port s hs x p l

theorem parseIpv6_bracket (loc port : TriAllow) (s : List UInt8) (h : s.head? = some (asc '[')) :
    parseIpv6 loc port s = bracketPart loc port s ∧ parseIp loc port s = (bracketPart loc port s).map (wrap .v6) := by
  cases s with
  | nil => cases h
  | cons b s =>
    simp only [List.head?_cons, Option.some.injEq] at h
    subst h
    simp [parseIpv6, parseIp]

theorem parseIpv6_bare (loc port : TriAllow) (s : List UInt8) (h : s.head? ≠ some (asc '[')) :
    parseIpv6 loc port s = (match parseV6 s with | some ip => barePart loc port ip | none => .err .invalid) := by
  cases s with
  | nil =>
    have : parseV6 [] = none := by decide
    simp [parseIpv6, this]
  | cons b s =>
    have hb : b ≠ asc '[' := by rintro rfl; exact h rfl
    simp only [parseIpv6, if_neg hb]
    rfl

theorem parseIp_bare (loc port : TriAllow) (s : List UInt8) (h : s.head? ≠ some (asc '[')) (hne : s ≠ []) :
    parseIp loc port s = (match parseV6 s with | some ip => (barePart loc port ip).map (wrap .v6) | none => (v4Part loc port s).map (wrap .v4)) := by
  cases s with
  | nil => exact absurd rfl hne
  | cons b s =>
    have hb : b ≠ asc '[' := by rintro rfl; exact h rfl
    simp only [parseIp, if_neg hb]
    rfl

theorem barePart_ok (loc port : TriAllow) (ip x : V6) (p : Option Nat) (l : Bool) :
    barePart loc port ip = .ok (x, p, l) ↔
      x = ip ∧ p = none ∧ PortOk port none ∧ LocalOk loc (isLocalV6 ip = true) ∧ l = localOf loc (isLocalV6 ip) := by
  unfold barePart
  split
  · rename_i hp; subst hp; simp [PortOk]
  · rename_i hp
    rw [finish_ok]
    have : PortOk port none := by cases port <;> simp_all [PortOk]
    simp only [Prod.mk.injEq, this, true_and]
    tauto

theorem parseIpv6_ok (loc port : TriAllow) (s : List UInt8) (hs : Str s) (x : V6) (p : Option Nat) (l : Bool) :
    parseIpv6 loc port s = .ok (x, p, l) ↔
      V6Input s x p ∧ PortOk port p ∧ LocalOk loc (isLocalV6 x = true) ∧ l = localOf loc (isLocalV6 x) := by
  rw [v6Input_iff]
  by_cases h0 : s.head? = some (asc '[')
  · rw [(parseIpv6_bracket loc port s h0).1, bracketPart_ok loc port s hs h0]
    have : ¬ (p = none ∧ V6Text s x.segs) := fun h => v6Text_not_bracket s _ h.2 h0
    simp only [this, false_or]
  · rw [parseIpv6_bare loc port s h0]
    have hb : ¬ BracketInput s x p := fun h => h0 (bracketInput_head s x p h)
    simp only [hb, or_false]
    cases h6 : parseV6 s with
    | none =>
      simp only [reduceCtorEq, false_iff]
      rintro ⟨⟨_, ht⟩, _⟩
      rw [(parseV6_iff s x).2 ht] at h6; cases h6
    | some ip =>
      simp only
      rw [barePart_ok]
      constructor
      · rintro ⟨rfl, rfl, h1, h2, h3⟩
        exact ⟨⟨rfl, (parseV6_iff s x).1 h6⟩, h1, h2, h3⟩
      · rintro ⟨⟨rfl, ht⟩, h1, h2, h3⟩
        rw [(parseV6_iff s x).2 ht] at h6
        cases h6
        exact ⟨rfl, rfl, h1, h2, h3⟩

theorem map_wrap_ok {α β : Type} (f : α → β) (hf : ∀ a b, f a = f b → a = b) (r : Out IpError (Parsed α)) (a : α) (p : Option Nat) (l : Bool) :
    r.map (wrap f) = .ok (f a, p, l) ↔ r = .ok (a, p, l) := by
  cases r with
  | ok v =>
    obtain ⟨a', p', l'⟩ := v
    simp only [Out.map_ok, wrap, Out.ok.injEq, Prod.mk.injEq]
    constructor
    · rintro ⟨h, rfl, rfl⟩; exact ⟨hf _ _ h, rfl, rfl⟩
    · rintro ⟨rfl, rfl, rfl⟩; exact ⟨rfl, rfl, rfl⟩
  | err e => simp
  | panic => simp

theorem map_wrap_ne {α β : Type} (f : α → β) (b : β) (hf : ∀ a, f a ≠ b) (r : Out IpError (Parsed α)) (p : Option Nat) (l : Bool) :
    r.map (wrap f) ≠ .ok (b, p, l) := by
  cases r with
  | ok v => obtain ⟨a', p', l'⟩ := v; simp [wrap, hf]
  | err e => simp
  | panic => simp

theorem parseIp_v6 (loc port : TriAllow) (s : List UInt8) (hs : Str s) (x : V6) (p : Option Nat) (l : Bool) :
    parseIp loc port s = .ok (.v6 x, p, l) ↔ parseIpv6 loc port s = .ok (x, p, l) := by
  by_cases h0 : s.head? = some (asc '[')
  · rw [(parseIpv6_bracket loc port s h0).1, (parseIpv6_bracket loc port s h0).2]
    exact map_wrap_ok _ (fun a b h => by simpa using h) _ _ _ _
  · rw [parseIpv6_bare loc port s h0]
    by_cases hne : s = []
    · subst hne
      have : parseV6 [] = none := by decide
      simp [parseIp, this]
    · rw [parseIp_bare loc port s h0 hne]
      cases parseV6 s with
      | none => simpa using map_wrap_ne _ _ (by simp) _ _ _
      | some ip => exact map_wrap_ok _ (fun a b h => by simpa using h) _ _ _ _

theorem parseIp_v4 (loc port : TriAllow) (s : List UInt8) (hs : Str s) (x : V4) (p : Option Nat) (l : Bool) :
    parseIp loc port s = .ok (.v4 x, p, l) ↔ parseIpv4 loc port s = .ok (x, p, l) := by
  by_cases h0 : s.head? = some (asc '[')
  · rw [(parseIpv6_bracket loc port s h0).2]
    refine iff_of_false (map_wrap_ne _ _ (by simp) _ _ _) ?_
    rw [parseIpv4_ok loc port s hs]
    rintro ⟨hi, _⟩
    exact v4Input_not_bracket s x p hi h0
  · by_cases hne : s = []
    · subst hne; simp [parseIp, parseIpv4]
    · rw [parseIp_bare loc port s h0 hne]
      have e4 : parseIpv4 loc port s = v4Part loc port s := by simp [parseIpv4, hne]
      cases h6 : parseV6 s with
      | none =>
        rw [e4]
        exact map_wrap_ok _ (fun a b h => by simpa using h) _ _ _ _
      | some ip =>
        refine iff_of_false (map_wrap_ne _ _ (by simp) _ _ _) ?_
        rw [parseIpv4_ok loc port s hs]
        rintro ⟨hi, _⟩
        exact v4_not_v6 s x p _ hi ((parseV6_iff s ip).1 h6)

/-! ### No panics, and the constructor -/

theorem map_panic_iff {ε α β : Type} (f : α → β) (r : Out ε α) : r.map f = .panic ↔ r = .panic := by
  cases r <;> simp

theorem barePart_panic (loc port : TriAllow) (ip : V6) : barePart loc port ip ≠ .panic := by
  unfold barePart
  split
  · simp
  · exact finish_panic _ _ _ _

theorem parseIpv4_panic (loc port : TriAllow) (s : List UInt8) (hs : Str s) : parseIpv4 loc port s ≠ .panic := by
  unfold parseIpv4
  split
  · simp
  · exact v4Part_panic loc port s hs

theorem parseIpv6_panic (loc port : TriAllow) (s : List UInt8) (hs : Str s) : parseIpv6 loc port s ≠ .panic := by
  by_cases h0 : s.head? = some (asc '[')
  · rw [(parseIpv6_bracket loc port s h0).1]
    exact bracketPart_panic loc port s hs h0
  · rw [parseIpv6_bare loc port s h0]
    split
    · exact barePart_panic _ _ _
    · simp

theorem parseIp_panic (loc port : TriAllow) (s : List UInt8) (hs : Str s) : parseIp loc port s ≠ .panic := by
  by_cases h0 : s.head? = some (asc '[')
  · rw [(parseIpv6_bracket loc port s h0).2, ne_eq, map_panic_iff]
    exact bracketPart_panic loc port s hs h0
  · by_cases hne : s = []
    · subst hne; simp [parseIp]
    · rw [parseIp_bare loc port s h0 hne]
      split
      · rw [ne_eq, map_panic_iff]; exact barePart_panic _ _ _
      · rw [ne_eq, map_panic_iff]; exact v4Part_panic loc port s hs

/-- The parsers that only return ports allowed by the port option. -/
theorem parseStr_ok {α : Type} (parse : TriAllow → TriAllow → List UInt8 → Out IpError (Parsed α)) (loc port : TriAllow) (s : List UInt8)
    (hp : ∀ x p l, parse loc port s = .ok (x, p, l) → PortOk port p) (x : α) (p : Option Nat) :
    parseStr parse loc port s = .ok (x, p) ↔ ∃ l, parse loc port s = .ok (x, p, l) := by
  unfold parseStr
  cases hr : parse loc port s with
  | ok v =>
    obtain ⟨x', p', l'⟩ := v
    have := hp _ _ _ hr
    cases port <;> cases p' <;> simp_all [create, PortOk]
  | err e => simp
  | panic => simp

theorem parseStr_panic {α : Type} (parse : TriAllow → TriAllow → List UInt8 → Out IpError (Parsed α)) (loc port : TriAllow) (s : List UInt8)
    (hp : ∀ x p l, parse loc port s = .ok (x, p, l) → PortOk port p) (hn : parse loc port s ≠ .panic) :
    parseStr parse loc port s ≠ .panic := by
  unfold parseStr
  cases hr : parse loc port s with
  | ok v =>
    obtain ⟨x', p', l'⟩ := v
    have := hp _ _ _ hr
    cases port <;> cases p' <;> simp_all [create, PortOk]
  | err e => simp
  | panic => exact absurd hr hn

theorem parseStr_err {α : Type} (parse : TriAllow → TriAllow → List UInt8 → Out IpError (Parsed α)) (loc port : TriAllow) (s : List UInt8)
    (e : IpError) : parseStr parse loc port s = .err e ↔ parse loc port s = .err e := by
  unfold parseStr
  cases hr : parse loc port s with
  | ok v => obtain ⟨x', p', l'⟩ := v; cases port <;> cases p' <;> simp [create]
  | err e => simp
  | panic => simp

theorem parseIp_port (loc port : TriAllow) (s : List UInt8) (hs : Str s) (x : IpAddr) (p : Option Nat) (l : Bool)
    (h : parseIp loc port s = .ok (x, p, l)) : PortOk port p := by
  cases x with
  | v4 x => exact ((parseIpv4_ok loc port s hs x p l).1 ((parseIp_v4 loc port s hs x p l).1 h)).2.1
  | v6 x => exact ((parseIpv6_ok loc port s hs x p l).1 ((parseIp_v6 loc port s hs x p l).1 h)).2.1

/-! ### Errors -/

theorem barePart_err (loc port : TriAllow) (ip : V6) (e : IpError) (h : barePart loc port ip = .err e) :
    (e = .portMust ∧ port = .must) ∨ (e = .localMust ∧ loc = .must ∧ isLocalV6 ip = false) ∨
      (e = .localDisallow ∧ loc = .disallow ∧ isLocalV6 ip = true) := by
  unfold barePart at h
  split at h
  · rename_i hp; cases h; exact .inl ⟨rfl, hp⟩
  · rw [finish_err] at h
    rcases h with ⟨h1, h2, rfl⟩ | ⟨h1, h2, rfl⟩
    · exact .inr (.inl ⟨rfl, h1, h2⟩)
    · exact .inr (.inr ⟨rfl, h1, h2⟩)

theorem bracket_last_no_port (s : List UInt8) (x : V6) (n : Nat) (h : V6Input s x (some n)) : s.getLast? ≠ some (asc ']') := by
  obtain ⟨t, u, rfl, ht, hn⟩ := h
  intro hl
  have e : ascii "[" ++ t ++ ascii "]:" ++ u = (ascii "[" ++ t ++ [asc ']']) ++ asc ':' :: u := by rw [asc_rbc]; simp
  rw [e] at hl
  exact portText_bracket u n hn (getLast_mem _ _ (last_after_colon _ _ hl))

/-- What an error of the `ipv6` parser guarantees. -/
theorem parseIpv6_err (loc port : TriAllow) (s : List UInt8) (hs : Str s) (e : IpError) (he : parseIpv6 loc port s = .err e) :
    (e = .portMust → port = .must ∧ ∀ x n, ¬ V6Input s x (some n)) ∧
    (e = .portDisallow → port = .disallow ∧ s.head? = some (asc '[') ∧ s.getLast? ≠ some (asc ']')) ∧
    (e = .localMust → loc = .must ∧ ∃ x p, V6Input s x p ∧ isLocalV6 x = false) ∧
    (e = .localDisallow → loc = .disallow ∧ ∃ x p, V6Input s x p ∧ isLocalV6 x = true) := by
  by_cases h0 : s.head? = some (asc '[')
  · rw [(parseIpv6_bracket loc port s h0).1] at he
    obtain ⟨h1, h2, h3, h4⟩ := bracketPart_err loc port s hs h0 e he
    refine ⟨fun h => ⟨(h1 h).1, fun x n hi => bracket_last_no_port s x n hi (h1 h).2⟩, fun h => ⟨(h2 h).1, h0, (h2 h).2⟩, fun h => ?_, fun h => ?_⟩
    · obtain ⟨hl, x, p, hi, hx⟩ := h3 h
      exact ⟨hl, x, p, (v6Input_iff s x p).2 (.inr hi), hx⟩
    · obtain ⟨hl, x, p, hi, hx⟩ := h4 h
      exact ⟨hl, x, p, (v6Input_iff s x p).2 (.inr hi), hx⟩
  · rw [parseIpv6_bare loc port s h0] at he
    have hnp : ∀ x n, ¬ V6Input s x (some n) := by
      intro x n hi
      rcases (v6Input_iff s x _).1 hi with ⟨h, _⟩ | h
      · cases h
      · exact h0 (bracketInput_head _ _ _ h)
    split at he
    · rename_i ip hip
      have hi : V6Input s ip none := .inl ((parseV6_iff s ip).1 hip)
      rcases barePart_err loc port ip e he with ⟨rfl, h⟩ | ⟨rfl, h, h'⟩ | ⟨rfl, h, h'⟩
      · simp only [reduceCtorEq, false_implies, and_true, true_implies]; exact ⟨h, hnp⟩
      · simp only [reduceCtorEq, false_implies, true_and, and_true, true_implies]; exact ⟨h, ip, _, hi, h'⟩
      · simp only [reduceCtorEq, false_implies, true_and, true_implies]; exact ⟨h, ip, _, hi, h'⟩
    · cases he; simp

theorem map_err_iff {ε α β : Type} (f : α → β) (r : Out ε α) (e : ε) : r.map f = .err e ↔ r = .err e := by
  cases r <;> simp

theorem v4Input_some_colon (s : List UInt8) (x : V4) (n : Nat) (h : V4Input s x (some n)) : asc ':' ∈ s := by
  obtain ⟨u, rfl, _⟩ := h
  simp [asc_colon]

/-- Where an error of the `ip` parser comes from. -/
theorem parseIp_err (loc port : TriAllow) (s : List UInt8) (hs : Str s) (e : IpError) (he : parseIp loc port s = .err e) :
    (e = .portMust → port = .must ∧ ∀ x n, ¬ IpInput s x (some n)) ∧
    (e = .portDisallow → port = .disallow ∧ asc ':' ∈ s ∨ port = .disallow ∧ s.head? = some (asc '[') ∧ s.getLast? ≠ some (asc ']')) ∧
    (e = .localMust → loc = .must ∧ ∃ x p, IpInput s x p ∧ isLocalIp x = false) ∧
    (e = .localDisallow → loc = .disallow ∧ ∃ x p, IpInput s x p ∧ isLocalIp x = true) := by
  by_cases h0 : s.head? = some (asc '[')
  · rw [(parseIpv6_bracket loc port s h0).2, map_err_iff] at he
    obtain ⟨h1, h2, h3, h4⟩ := bracketPart_err loc port s hs h0 e he
    refine ⟨fun h => ⟨(h1 h).1, fun x n hi => ?_⟩, fun h => .inr ⟨(h2 h).1, h0, (h2 h).2⟩, fun h => ?_, fun h => ?_⟩
    · cases x with
      | v4 x => exact v4Input_not_bracket s x (some n) hi h0
      | v6 x => exact bracket_last_no_port s x n hi (h1 h).2
    · obtain ⟨hl, x, p, hi, hx⟩ := h3 h
      exact ⟨hl, .v6 x, p, (v6Input_iff s x p).2 (.inr hi), hx⟩
    · obtain ⟨hl, x, p, hi, hx⟩ := h4 h
      exact ⟨hl, .v6 x, p, (v6Input_iff s x p).2 (.inr hi), hx⟩
  · by_cases hne : s = []
    · subst hne
      simp only [parseIp, Out.err.injEq] at he
      subst he; simp
    · rw [parseIp_bare loc port s h0 hne] at he
      have hnp : ∀ x n, ¬ V6Input s x (some n) := by
        intro x n hi
        rcases (v6Input_iff s x _).1 hi with ⟨h, _⟩ | h
        · cases h
        · exact h0 (bracketInput_head _ _ _ h)
      split at he
      · rename_i ip hip
        rw [map_err_iff] at he
        have hv6 := (parseV6_iff s ip).1 hip
        have hi : IpInput s (.v6 ip) none := .inl hv6
        rcases barePart_err loc port ip e he with ⟨rfl, h⟩ | ⟨rfl, h, h'⟩ | ⟨rfl, h, h'⟩
        · simp only [reduceCtorEq, false_implies, and_true, true_implies]
          refine ⟨h, fun x n hi => ?_⟩
          cases x with
          | v4 x => exact v4_not_v6 s x (some n) _ hi hv6
          | v6 x => exact hnp x n hi
        · simp only [reduceCtorEq, false_implies, true_and, and_true, true_implies]; exact ⟨h, .v6 ip, _, hi, h'⟩
        · simp only [reduceCtorEq, false_implies, true_and, true_implies]; exact ⟨h, .v6 ip, _, hi, h'⟩
      · rw [map_err_iff] at he
        obtain ⟨h1, h2, h3, h4⟩ := v4Part_err loc port s hs e he
        refine ⟨fun h => ⟨(h1 h).1, fun x n hi => ?_⟩, fun h => .inl (h2 h), fun h => ?_, fun h => ?_⟩
        · cases x with
          | v4 x => exact (h1 h).2 (v4Input_some_colon s x n hi)
          | v6 x => exact hnp x n hi
        · obtain ⟨hl, x, p, hi, hx⟩ := h3 h
          exact ⟨hl, .v4 x, p, hi, hx⟩
        · obtain ⟨hl, x, p, hi, hx⟩ := h4 h
          exact ⟨hl, .v4 x, p, hi, hx⟩

/-! ### Printing -/

theorem uriV4_input (x : V4) (p : Option Nat) (hp : ∀ n, p = some n → n < 65536) :
    V4Input (uriV4 (x, p)) x p ∧ Str (uriV4 (x, p)) := by
  cases p with
  | none =>
    refine ⟨showV4_eq x, ?_⟩
    simp only [uriV4, showV4_eq]
    exact str_ascii _ (text_ascii x)
  | some n =>
    have hn := portText_show n (hp n rfl)
    refine ⟨⟨IntV.showNat n, by simp [uriV4, showV4_eq, asc_colon], hn⟩, ?_⟩
    simp only [uriV4, showV4_eq]
    apply str_ascii
    intro b hb
    simp only [List.mem_append, List.mem_cons] at hb
    rcases hb with hb | rfl | hb
    · exact text_ascii x b hb
    · decide
    · exact portText_ascii _ _ hn b hb

theorem uriV6_input (x : V6) (p : Option Nat) (hp : ∀ n, p = some n → n < 65536) :
    V6Input (uriV6 (x, p)) x p ∧ Str (uriV6 (x, p)) := by
  have hx := showV6_text x
  cases p with
  | none =>
    refine ⟨.inr ⟨showV6 x, by simp [uriV6, asc_lb, asc_rb], hx⟩, ?_⟩
    apply str_ascii
    intro b hb
    simp only [uriV6, List.cons_append, List.mem_append, List.mem_cons, List.not_mem_nil, or_false] at hb
    rcases hb with rfl | hb | rfl
    · decide
    · exact v6Text_ascii _ _ hx b hb
    · decide
  | some n =>
    have hn := portText_show n (hp n rfl)
    refine ⟨⟨showV6 x, IntV.showNat n, by simp [uriV6, asc_lb, asc_rbc], hx, hn⟩, ?_⟩
    apply str_ascii
    intro b hb
    simp only [uriV6, List.cons_append, List.mem_append, List.mem_cons] at hb
    rcases hb with rfl | hb | rfl | rfl | hb
    · decide
    · exact v6Text_ascii _ _ hx b hb
    · decide
    · decide
    · exact portText_ascii _ _ hn b hb

theorem input_port_lt (s : List UInt8) (x : IpAddr) (n : Nat) (h : IpInput s x (some n)) : n < 65536 := by
  cases x with
  | v4 x => obtain ⟨_, _, h⟩ := h; exact h.2
  | v6 x => obtain ⟨_, _, _, _, h⟩ := h; exact h.2

end Verif.Ip
