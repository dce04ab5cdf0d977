import Verif.Proof.StdIp
import Verif.Proof.Str

/-! The `ipv4`, `ipv6` and `ip` validators. -/

namespace Verif.Ip

open Verif.StdIp Verif.Spec.Ip Verif.Spec

/-! ### Ports -/

theorem parsePort_iff (s : List UInt8) (n : Nat) : parsePort s = some n ↔ PortText s n := by
  unfold parsePort PortText
  have key := fun v => IntV.fromStr_ok false 16 s v
  constructor
  · intro h
    split at h
    · rename_i v hv
      obtain ⟨h1, h2⟩ := (key v).1 hv
      simp only [Option.some.injEq] at h
      simp only [IntV.Fits, Bool.false_eq_true, if_false] at h2
      have : v = (n : Int) := by omega
      subst this
      exact ⟨h1, by omega⟩
    · cases h
  · rintro ⟨h1, h2⟩
    have := (key n).2 ⟨h1, by simp only [IntV.Fits, Bool.false_eq_true, if_false]; omega⟩
    rw [this]; simp

theorem portText_bytes (s : List UInt8) (n : Nat) (h : PortText s n) : s ≠ [] ∧ ∀ b ∈ s, b ∈ IntV.decDigits ∨ b = asc '+' := by
  obtain ⟨⟨ds, hne, hd, h⟩, _⟩ := h
  rcases h with ⟨rfl | rfl, _⟩ | ⟨h, _⟩
  · exact ⟨hne, fun b hb => .inl (hd b hb)⟩
  · refine ⟨by simp, fun b hb => ?_⟩
    rcases List.mem_cons.1 hb with rfl | hb
    · exact .inr rfl
    · exact .inl (hd b hb)
  · cases h

theorem portText_no (c : UInt8) (hc : c ∉ IntV.decDigits ∧ c ≠ asc '+') (s : List UInt8) (n : Nat) (h : PortText s n) : c ∉ s := by
  intro hm
  rcases (portText_bytes s n h).2 c hm with h | h
  · exact hc.1 h
  · exact hc.2 h

theorem portText_colon (s : List UInt8) (n : Nat) (h : PortText s n) : asc ':' ∉ s := portText_no _ (by decide) s n h
theorem portText_bracket (s : List UInt8) (n : Nat) (h : PortText s n) : asc ']' ∉ s := portText_no _ (by decide) s n h

theorem decDigits_ascii : ∀ b ∈ IntV.decDigits, b.toNat < 128 := by decide

theorem portText_ascii (s : List UInt8) (n : Nat) (h : PortText s n) : ∀ b ∈ s, b.toNat < 128 := by
  intro b hb
  rcases (portText_bytes s n h).2 b hb with h | rfl
  · exact decDigits_ascii b h
  · decide

theorem portText_show (n : Nat) (h : n < 65536) : PortText (IntV.showNat n) n := by
  refine ⟨⟨IntV.showNat n, IntV.showNat_ne_nil n, IntV.showNat_digits n, .inl ⟨.inl rfl, ?_⟩⟩, h⟩
  rw [IntV.showNat_value]

/-! ### Locality -/

theorem finish_ok {α : Type} (loc : TriAllow) (f : α → Bool) (ip : α) (p : Option Nat) (r : Parsed α) :
    finish loc f ip p = .ok r ↔ LocalOk loc (f ip = true) ∧ r = (ip, p, localOf loc (f ip)) := by
  cases loc <;> cases hf : f ip <;> simp [finish, checkLocal, localOf, LocalOk, hf] <;> exact eq_comm

theorem finish_err {α : Type} (loc : TriAllow) (f : α → Bool) (ip : α) (p : Option Nat) (e : IpError) :
    finish loc f ip p = .err e ↔ loc = .must ∧ f ip = false ∧ e = .localMust ∨ loc = .disallow ∧ f ip = true ∧ e = .localDisallow := by
  cases loc <;> cases hf : f ip <;> simp [finish, checkLocal, localOf, hf] <;> exact eq_comm

theorem finish_panic {α : Type} (loc : TriAllow) (f : α → Bool) (ip : α) (p : Option Nat) : finish loc f ip p ≠ .panic := by
  cases loc <;> cases hf : f ip <;> simp [finish, checkLocal, localOf, hf]

/-! ### IPv4 -/

theorem v4Part_colon (loc port : TriAllow) (p t : List UInt8) (hs : Str (p ++ asc ':' :: t)) (ht : asc ':' ∉ t) :
    v4Part loc port (p ++ asc ':' :: t) =
      if port = .disallow then .err .portDisallow
      else match parseV4 p with
        | some ip =>
          match parsePort t with
          | some n => finish loc isLocalV4 ip (some n)
          | none => .err .invalid
        | none => .err .invalid := by
  unfold v4Part
  rw [rposition_split _ _ _ ht]
  simp only
  split
  · rfl
  · have h1 : (strSlice (p ++ asc ':' :: t) 0 p.length : Out IpError _) = .ok p := by
      have := strSlice_mid (ε := IpError) [] p (asc ':' :: t) (by simp [isCharBoundary]) (boundary_byte p t _ (by decide))
      simpa using this
    have h2 : (strSliceFrom (p ++ asc ':' :: t) (p.length + 1) : Out IpError _) = .ok t := by
      have := strSliceFrom_cut (ε := IpError) (p ++ [asc ':']) t (boundary_cut _ _ (str_cut p t _ (by decide) hs).2)
      simpa using this
    rw [h1]
    simp only [Out.bind_ok, h2]
    cases parseV4 p with
    | none => rfl
    | some ip => rfl

theorem v4Part_none (loc port : TriAllow) (s : List UInt8) (h : asc ':' ∉ s) :
    v4Part loc port s =
      if port = .must then .err .portMust
      else match parseV4 s with
        | some ip => finish loc isLocalV4 ip none
        | none => .err .invalid := by
  unfold v4Part
  rw [(rposition_none _ _).2 h]
  rfl

theorem dec_digits (n : Nat) (h : n < 256) : ∀ b ∈ dec n, b ∈ IntV.decDigits := by
  have : ∀ n : Fin 256, ∀ b ∈ dec n, b ∈ IntV.decDigits := by decide +kernel
  exact this ⟨n, h⟩

theorem text_bytes (x : V4) : ∀ b ∈ x.text, b ∈ IntV.decDigits ∨ b = asc '.' := by
  intro b hb
  simp only [V4.text, dotted, asc_dot, List.mem_append, List.mem_singleton] at hb
  rcases hb with (((((hb | hb) | hb) | hb) | hb) | hb) | hb
  · exact .inl (dec_digits _ x.a.toNat_lt b hb)
  · exact .inr hb
  · exact .inl (dec_digits _ x.b.toNat_lt b hb)
  · exact .inr hb
  · exact .inl (dec_digits _ x.c.toNat_lt b hb)
  · exact .inr hb
  · exact .inl (dec_digits _ x.d.toNat_lt b hb)

theorem text_no_colon (x : V4) : asc ':' ∉ x.text := by
  intro h
  rcases text_bytes x _ h with h | h <;> revert h <;> decide

theorem text_ne_nil (x : V4) : x.text ≠ [] := by
  obtain ⟨r, h⟩ := text_split x
  rw [h]; simp

theorem text_ascii (x : V4) : ∀ b ∈ x.text, b.toNat < 128 := by
  intro b hb
  rcases text_bytes x b hb with h | rfl
  · exact decDigits_ascii b h
  · decide

theorem text_inj (x y : V4) (h : x.text = y.text) : x = y := by
  have h1 := (parseV4_iff x.text x).2 rfl
  have h2 := (parseV4_iff x.text y).2 h
  rw [h1] at h2; simpa using h2

theorem v4Part_ok (loc port : TriAllow) (s : List UInt8) (hs : Str s) (x : V4) (p : Option Nat) (l : Bool) :
    v4Part loc port s = .ok (x, p, l) ↔
      V4Input s x p ∧ PortOk port p ∧ LocalOk loc (isLocalV4 x = true) ∧ l = localOf loc (isLocalV4 x) := by
  by_cases hc : asc ':' ∈ s
  · obtain ⟨pre, t, rfl, ht⟩ := last_split _ _ hc
    rw [v4Part_colon loc port pre t hs ht]
    constructor
    · intro h
      split at h
      · cases h
      · rename_i hp
        split at h
        · rename_i ip hip
          split at h
          · rename_i n hn
            rw [finish_ok] at h
            simp only [Prod.mk.injEq] at h
            obtain ⟨h1, rfl, rfl, rfl⟩ := h
            rw [parseV4_iff] at hip
            rw [parsePort_iff] at hn
            exact ⟨⟨t, by rw [hip, asc_colon]; simp, hn⟩, by cases port <;> simp_all [PortOk], h1, rfl⟩
          · cases h
        · cases h
    · rintro ⟨hi, hp, hl, rfl⟩
      cases p with
      | none =>
        have : pre ++ asc ':' :: t = x.text := hi
        exact absurd (by rw [← this]; simp) (text_no_colon x)
      | some n =>
        obtain ⟨u, hu, hn⟩ := hi
        have hu' : pre ++ asc ':' :: t = x.text ++ asc ':' :: u := by rw [hu, asc_colon]; simp
        obtain ⟨rfl, rfl⟩ := last_unique _ _ _ _ _ hu' ht (portText_colon _ _ hn)
        rw [if_neg (by rintro rfl; simp [PortOk] at hp)]
        simp only [(parseV4_iff _ _).2 rfl, (parsePort_iff _ _).2 hn]
        rw [finish_ok]
        exact ⟨hl, rfl⟩
  · rw [v4Part_none loc port s hc]
    constructor
    · intro h
      split at h
      · cases h
      · rename_i hp
        split at h
        · rename_i ip hip
          rw [finish_ok] at h
          simp only [Prod.mk.injEq] at h
          obtain ⟨h1, rfl, rfl, rfl⟩ := h
          rw [parseV4_iff] at hip
          exact ⟨hip, by cases port <;> simp_all [PortOk], h1, rfl⟩
        · cases h
    · rintro ⟨hi, hp, hl, rfl⟩
      cases p with
      | none =>
        rw [if_neg (by rintro rfl; simp [PortOk] at hp)]
        simp only [(parseV4_iff _ _).2 hi]
        rw [finish_ok]
        exact ⟨hl, rfl⟩
      | some n =>
        obtain ⟨u, hu, hn⟩ := hi
        exact absurd (by rw [hu, asc_colon]; simp) hc

theorem v4Part_panic (loc port : TriAllow) (s : List UInt8) (hs : Str s) : v4Part loc port s ≠ .panic := by
  by_cases hc : asc ':' ∈ s
  · obtain ⟨pre, t, rfl, ht⟩ := last_split _ _ hc
    rw [v4Part_colon loc port pre t hs ht]
    split
    · simp
    · split
      · split
        · exact finish_panic _ _ _ _
        · simp
      · simp
  · rw [v4Part_none loc port s hc]
    split
    · simp
    · split
      · exact finish_panic _ _ _ _
      · simp

/-- The errors of `v4Part` other than `invalid`. -/
theorem v4Part_err (loc port : TriAllow) (s : List UInt8) (hs : Str s) (e : IpError) (he : v4Part loc port s = .err e) :
    (e = .portMust → port = .must ∧ asc ':' ∉ s) ∧ (e = .portDisallow → port = .disallow ∧ asc ':' ∈ s) ∧
    (e = .localMust → loc = .must ∧ ∃ x p, V4Input s x p ∧ isLocalV4 x = false) ∧
    (e = .localDisallow → loc = .disallow ∧ ∃ x p, V4Input s x p ∧ isLocalV4 x = true) := by
  by_cases hc : asc ':' ∈ s
  · obtain ⟨pre, t, rfl, ht⟩ := last_split _ _ hc
    rw [v4Part_colon loc port pre t hs ht] at he
    split at he
    · rename_i hp
      cases he
      simp [hp]
    · split at he
      · rename_i ip hip
        split at he
        · rename_i n hn
          rw [parseV4_iff] at hip
          rw [parsePort_iff] at hn
          have hi : V4Input (pre ++ asc ':' :: t) ip (some n) := ⟨t, by rw [hip, asc_colon]; simp, hn⟩
          rw [finish_err] at he
          rcases he with ⟨h1, h2, rfl⟩ | ⟨h1, h2, rfl⟩
          · simp only [reduceCtorEq, false_implies, true_and, and_true, true_implies]
            exact ⟨h1, ip, _, hi, h2⟩
          · simp only [reduceCtorEq, false_implies, true_and, true_implies]
            exact ⟨h1, ip, _, hi, h2⟩
        · cases he; simp
      · cases he; simp
  · rw [v4Part_none loc port s hc] at he
    split at he
    · rename_i hp
      cases he
      simp [hp, hc]
    · split at he
      · rename_i ip hip
        rw [parseV4_iff] at hip
        rw [finish_err] at he
        have hi : V4Input s ip none := hip
        rcases he with ⟨h1, h2, rfl⟩ | ⟨h1, h2, rfl⟩
        · simp only [reduceCtorEq, false_implies, true_and, and_true, true_implies]
          exact ⟨h1, ip, _, hi, h2⟩
        · simp only [reduceCtorEq, false_implies, true_and, true_implies]
          exact ⟨h1, ip, _, hi, h2⟩
      · cases he; simp

/-! ### IPv6 in brackets -/

theorem asc_lb : ascii "[" = [asc '['] := rfl
theorem asc_rb : ascii "]" = [asc ']'] := rfl
theorem asc_rbc : ascii "]:" = [asc ']', asc ':'] := rfl

/-- The three cases of a text that starts with `[`. -/
inductive Brackets : List UInt8 → Prop
  | closed (t : List UInt8) : Brackets (asc '[' :: t ++ [asc ']'])
  | port (t u : List UInt8) (hu : asc ':' ∉ u) (hl : u.getLast? ≠ some (asc ']')) (ht : t ≠ []) :
      Brackets (asc '[' :: t ++ asc ']' :: asc ':' :: u)
  | other (s : List UInt8) (h0 : s.head? = some (asc '[')) (hl : s.getLast? ≠ some (asc ']'))
      (hn : ∀ t u, t ≠ [] → asc ':' ∉ u → s ≠ asc '[' :: t ++ asc ']' :: asc ':' :: u) : Brackets s

theorem brackets (s : List UInt8) (h0 : s.head? = some (asc '[')) : Brackets s := by
  by_cases hl : s.getLast? = some (asc ']')
  · obtain ⟨p, rfl⟩ := List.getLast?_eq_some_iff.1 hl
    cases p with
    | nil => exact absurd h0 (by decide)
    | cons b p =>
      simp only [List.cons_append, List.head?_cons, Option.some.injEq] at h0
      subst h0
      exact .closed p
  · by_cases h : ∃ t u, t ≠ [] ∧ asc ':' ∉ u ∧ s = asc '[' :: t ++ asc ']' :: asc ':' :: u
    · obtain ⟨t, u, ht, hu, rfl⟩ := h
      refine .port t u hu ?_ ht
      intro h
      apply hl
      obtain ⟨v, rfl⟩ := List.getLast?_eq_some_iff.1 h
      rw [List.getLast?_eq_some_iff]
      exact ⟨asc '[' :: t ++ asc ']' :: asc ':' :: v, by simp⟩
    · exact .other s h0 hl fun t u ht hu he => h ⟨t, u, ht, hu, he⟩

theorem bracket_closed (loc port : TriAllow) (t : List UInt8) (hs : Str (asc '[' :: t ++ [asc ']'])) :
    bracketPart loc port (asc '[' :: t ++ [asc ']']) =
      if port = .must then .err .portMust
      else match parseV6 t with
        | some ip => finish loc isLocalV6 ip none
        | none => .err .invalid := by
  unfold bracketPart
  simp only
  have hi : (idx (asc '[' :: t ++ [asc ']']) ((asc '[' :: t ++ [asc ']']).length - 1) : Out IpError _) = .ok (asc ']') := by
    have : (asc '[' :: t ++ [asc ']']).length - 1 = (asc '[' :: t).length := by simp
    rw [this, idx, List.getElem?_append_right (by omega)]
    simp
  rw [hi]
  simp only [Out.bind_ok, if_true]
  split
  · rfl
  · have h1 : (strSlice (asc '[' :: t ++ [asc ']']) 1 ((asc '[' :: t ++ [asc ']']).length - 1) : Out IpError _) = .ok t := by
      have hb : isCharBoundary ([asc '['] ++ t ++ [asc ']']) [asc '['].length = true := by
        have := boundary_cut [asc '['] (t ++ [asc ']']) (str_cut [] (t ++ [asc ']']) (asc '[') (by decide) hs).2
        simpa using this
      have := strSlice_mid (ε := IpError) [asc '['] t [asc ']'] hb (boundary_byte ([asc '['] ++ t) [] _ (by decide))
      simpa using this
    rw [h1]
    rfl

/-- The last byte of a text with a colon is the last after the colon. -/
theorem last_after_colon (p u : List UInt8) (h : (p ++ asc ':' :: u).getLast? = some (asc ']')) : u.getLast? = some (asc ']') := by
  cases u with
  | nil =>
    have : (p ++ [asc ':']).getLast? = some (asc ':') := List.getLast?_eq_some_iff.2 ⟨_, rfl⟩
    rw [this] at h
    exact absurd h (by decide)
  | cons y u =>
    rw [List.getLast?_append, List.getLast?_cons_cons] at h
    cases hu : (y :: u).getLast? with
    | none => simp at hu
    | some c => rw [hu] at h; simpa using h

theorem idx_last (s : List UInt8) (h : s ≠ []) : ∃ b, (idx s (s.length - 1) : Out IpError _) = .ok b ∧ s.getLast? = some b := by
  rw [List.getLast?_eq_getElem?]
  have : s.length - 1 < s.length := by have := List.length_pos_iff.2 h; omega
  exact ⟨s[s.length - 1], by simp [idx, this], by simp [this]⟩

theorem bracket_port (loc port : TriAllow) (t u : List UInt8) (hs : Str (asc '[' :: t ++ asc ']' :: asc ':' :: u)) (hu : asc ':' ∉ u)
    (hl : u.getLast? ≠ some (asc ']')) (hne : t ≠ []) :
    bracketPart loc port (asc '[' :: t ++ asc ']' :: asc ':' :: u) =
      if port = .disallow then .err .portDisallow
      else match parseV6 t with
        | some ip =>
          match parsePort u with
          | some n => finish loc isLocalV6 ip (some n)
          | none => .err .invalid
        | none => .err .invalid := by
  have e : asc '[' :: t ++ asc ']' :: asc ':' :: u = (asc '[' :: t ++ [asc ']']) ++ asc ':' :: u := by simp
  obtain ⟨b, hb1, hb2⟩ := idx_last (asc '[' :: t ++ asc ']' :: asc ':' :: u) (by simp)
  have hb : b ≠ asc ']' := by
    rintro rfl
    rw [e] at hb2
    exact hl (last_after_colon _ _ hb2)
  unfold bracketPart
  simp only [hb1, Out.bind_ok, if_neg hb]
  split
  · rfl
  · have hr : rposition (asc ':') (asc '[' :: t ++ asc ']' :: asc ':' :: u) = some (t.length + 2) := by
      rw [e, rposition_split _ _ _ hu]; simp
    rw [hr]
    have hlen : t.length + 2 > 2 := by have := List.length_pos_iff.2 hne; omega
    have hix : (idx (asc '[' :: t ++ asc ']' :: asc ':' :: u) (t.length + 2 - 1) : Out IpError _) = .ok (asc ']') := by
      have : t.length + 2 - 1 = (asc '[' :: t).length := by simp
      rw [this, idx, List.getElem?_append_right (by omega)]
      simp
    simp only [hlen, if_true, hix, Out.bind_ok]
    have hcut := (str_cut [] (t ++ asc ']' :: asc ':' :: u) (asc '[') (by decide) hs).2
    have hcut2 := (str_cut t (asc ':' :: u) (asc ']') (by decide) hcut).2
    have hcut3 := (str_cut [] u (asc ':') (by decide) hcut2).2
    have h1 : (strSlice (asc '[' :: t ++ asc ']' :: asc ':' :: u) 1 (t.length + 2 - 1) : Out IpError _) = .ok t := by
      have hb : isCharBoundary ([asc '['] ++ t ++ asc ']' :: asc ':' :: u) [asc '['].length = true := by
        have := boundary_cut [asc '['] (t ++ asc ']' :: asc ':' :: u) hcut
        simpa using this
      have := strSlice_mid (ε := IpError) [asc '['] t (asc ']' :: asc ':' :: u) hb (boundary_byte ([asc '['] ++ t) _ _ (by decide))
      simpa using this
    have h2 : (strSliceFrom (asc '[' :: t ++ asc ']' :: asc ':' :: u) (t.length + 2 + 1) : Out IpError _) = .ok u := by
      have := strSliceFrom_cut (ε := IpError) (asc '[' :: t ++ [asc ']', asc ':']) u (boundary_cut _ _ hcut3)
      simpa using this
    rw [h1]
    simp only [Out.bind_ok, h2]
    cases parseV6 t with
    | none => rfl
    | some ip => rfl

theorem bracket_other (loc port : TriAllow) (s : List UInt8) (h0 : s.head? = some (asc '[')) (hl : s.getLast? ≠ some (asc ']'))
    (hn : ∀ t u, t ≠ [] → asc ':' ∉ u → s ≠ asc '[' :: t ++ asc ']' :: asc ':' :: u) :
    bracketPart loc port s = if port = .disallow then .err .portDisallow else .err .invalid := by
  have hne : s ≠ [] := by rintro rfl; cases h0
  obtain ⟨b, hb1, hb2⟩ := idx_last s hne
  have hb : b ≠ asc ']' := by rintro rfl; exact hl hb2
  unfold bracketPart
  simp only [hb1, Out.bind_ok, if_neg hb]
  split
  · rfl
  · by_cases hc : asc ':' ∈ s
    · obtain ⟨p, u, rfl, hu⟩ := last_split _ _ hc
      rw [rposition_split _ _ _ hu]
      simp only
      split
      · rename_i hlen
        have hi : p.length - 1 < p.length := by omega
        have : (idx (p ++ asc ':' :: u) (p.length - 1) : Out IpError _) = .ok p[p.length - 1] := by
          rw [idx, List.getElem?_append_left hi]; simp [hi]
        rw [this]
        simp only [Out.bind_ok]
        rw [if_neg]
        intro hbr
        have hgl : p.getLast? = some (asc ']') := by rw [List.getLast?_eq_getElem?, List.getElem?_eq_getElem hi, hbr]
        obtain ⟨q, rfl⟩ := List.getLast?_eq_some_iff.1 hgl
        cases q with
        | nil => simp at hlen
        | cons x q =>
          simp only [List.cons_append, List.head?_cons, Option.some.injEq] at h0
          subst h0
          refine hn q u ?_ hu (by simp)
          rintro rfl
          simp at hlen
      · rfl
    · rw [(rposition_none _ _).2 hc]

/-! ### Shapes of IPv6 texts -/

theorem v6Text_colon (s : List UInt8) (segs : List Nat) (h : V6Text s segs) :
    ∃ t r, s = t ++ asc ':' :: r ∧ ∀ b ∈ t, b ∈ Hex.symbols .any := by
  have grp : ∀ q t gs, Groups q t gs → gs.length ≠ 1 → (q = true → gs.length ≠ 2) →
      ∃ t' r, t = t' ++ asc ':' :: r ∧ ∀ b ∈ t', b ∈ Hex.symbols .any := by
    intro q t gs hg h1 h2
    cases hg with
    | group hg => simp at h1
    | quad => simp at h2
    | @cons t g _ r gs hg hr => exact ⟨t, r, by rw [asc_colon]; simp, hg.2.2.1⟩
  rcases h with ⟨q, hg, h8⟩ | ⟨q, h, t, hs, ts, rfl, hh, ht, hle, _⟩
  · exact grp q s segs hg (by omega) (by omega)
  · rcases hh with ⟨rfl, _⟩ | hh
    · exact ⟨[], asc ':' :: t, by rw [asc_colons]; simp, by simp⟩
    · cases hh with
      | group hg => exact ⟨h, asc ':' :: t, by rw [asc_colons]; simp, hg.2.2.1⟩
      | @cons t' g _ r gs hg hr => exact ⟨t', r ++ ascii "::" ++ t, by rw [asc_colon]; simp, hg.2.2.1⟩

theorem groups_bytes (q : Bool) (t : List UInt8) (gs : List Nat) (h : Groups q t gs) :
    ∀ b ∈ t, b ∈ Hex.symbols .any ∨ b = asc ':' ∨ b = asc '.' := by
  induction h with
  | group hg => exact fun b hb => .inl (hg.2.2.1 b hb)
  | quad ha hb hc hd =>
    intro b hm
    simp only [dotted, asc_dot, List.mem_append, List.mem_singleton] at hm
    rcases hm with (((((hm | hm) | hm) | hm) | hm) | hm) | hm
    · exact .inl (dec_hex _ ha b hm)
    · exact .inr (.inr hm)
    · exact .inl (dec_hex _ hb b hm)
    · exact .inr (.inr hm)
    · exact .inl (dec_hex _ hc b hm)
    · exact .inr (.inr hm)
    · exact .inl (dec_hex _ hd b hm)
  | cons hg hr ih =>
    intro b hm
    simp only [asc_colon, List.mem_append, List.mem_singleton] at hm
    rcases hm with (hm | hm) | hm
    · exact .inl (hg.2.2.1 b hm)
    · exact .inr (.inl hm)
    · exact ih b hm

theorem v6Text_bytes (s : List UInt8) (segs : List Nat) (h : V6Text s segs) :
    ∀ b ∈ s, b ∈ Hex.symbols .any ∨ b = asc ':' ∨ b = asc '.' := by
  rcases h with ⟨q, hg, h8⟩ | ⟨q, h, t, hs, ts, rfl, hh, ht, hle, _⟩
  · exact groups_bytes q s segs hg
  · intro b hb
    simp only [asc_colons, List.mem_append, List.mem_cons, List.not_mem_nil, or_false] at hb
    rcases hb with (hb | hb | hb) | hb
    · rcases hh with ⟨rfl, _⟩ | hh
      · cases hb
      · exact groups_bytes _ _ _ hh b hb
    · exact .inr (.inl hb)
    · exact .inr (.inl hb)
    · rcases ht with ⟨rfl, _⟩ | ht
      · cases hb
      · exact groups_bytes _ _ _ ht b hb

theorem v6Text_ascii (s : List UInt8) (segs : List Nat) (h : V6Text s segs) : ∀ b ∈ s, b.toNat < 128 := by
  intro b hb
  rcases v6Text_bytes s segs h b hb with h | rfl | rfl
  · exact (by decide : ∀ b ∈ Hex.symbols .any, b.toNat < 128) b h
  · decide
  · decide

theorem v6Text_no_bracket (s : List UInt8) (segs : List Nat) (h : V6Text s segs) : asc '[' ∉ s ∧ asc ']' ∉ s := by
  constructor <;> intro hm <;> rcases v6Text_bytes s segs h _ hm with h | h | h <;> revert h <;> decide

theorem v6Text_ne_nil (s : List UInt8) (segs : List Nat) (h : V6Text s segs) : s ≠ [] := by
  obtain ⟨t, r, rfl, _⟩ := v6Text_colon s segs h
  simp

/-! ### The bracketed part -/

/-- The inputs in brackets. -/
def BracketInput (s : List UInt8) (x : V6) : Option Nat → Prop
  | none => ∃ t, s = ascii "[" ++ t ++ ascii "]" ∧ V6Text t x.segs
  | some n => ∃ t u, s = ascii "[" ++ t ++ ascii "]:" ++ u ∧ V6Text t x.segs ∧ PortText u n

theorem getLast_mem (u : List UInt8) (b : UInt8) (h : u.getLast? = some b) : b ∈ u := List.mem_of_getLast? h

theorem bracketPart_ok (loc port : TriAllow) (s : List UInt8) (hs : Str s) (h0 : s.head? = some (asc '[')) (x : V6) (p : Option Nat) (l : Bool) :
    bracketPart loc port s = .ok (x, p, l) ↔
      BracketInput s x p ∧ PortOk port p ∧ LocalOk loc (isLocalV6 x = true) ∧ l = localOf loc (isLocalV6 x) := by
  have hb := brackets s h0
  cases hb with
  | closed t =>
    rw [bracket_closed loc port t hs]
    constructor
    · intro h
      split at h
      · cases h
      · rename_i hp
        split at h
        · rename_i ip hip
          rw [finish_ok] at h
          simp only [Prod.mk.injEq] at h
          obtain ⟨h1, rfl, rfl, rfl⟩ := h
          rw [parseV6_iff] at hip
          exact ⟨⟨t, rfl, hip⟩, by cases port <;> simp_all [PortOk], h1, rfl⟩
        · cases h
    · rintro ⟨hi, hp, hl, rfl⟩
      cases p with
      | none =>
        obtain ⟨t', he, ht⟩ := hi
        have : t = t' := by
          rw [asc_lb, asc_rb] at he
          have h2 : asc '[' :: t ++ [asc ']'] = asc '[' :: t' ++ [asc ']'] := by simpa using he
          simpa using h2
        subst this
        rw [if_neg (by rintro rfl; simp [PortOk] at hp)]
        simp only [(parseV6_iff _ _).2 ht]
        rw [finish_ok]
        exact ⟨hl, rfl⟩
      | some n =>
        obtain ⟨t', u, he, ht, hn⟩ := hi
        exfalso
        have h1 : (asc '[' :: t ++ [asc ']']).getLast? = some (asc ']') := List.getLast?_eq_some_iff.2 ⟨_, rfl⟩
        rw [he, List.getLast?_append] at h1
        obtain ⟨c, hc⟩ : ∃ c, u.getLast? = some c := by
          cases hu : u.getLast? with
          | none => exact absurd (List.getLast?_eq_none_iff.1 hu) (portText_bytes u n hn).1
          | some c => exact ⟨c, rfl⟩
        rw [hc] at h1
        simp only [Option.some_or, Option.some.injEq] at h1
        subst h1
        exact portText_bracket u n hn (getLast_mem u _ hc)
  | port t u hu hlast ht =>
    rw [bracket_port loc port t u hs hu hlast ht]
    constructor
    · intro h
      split at h
      · cases h
      · rename_i hp
        split at h
        · rename_i ip hip
          split at h
          · rename_i n hn
            rw [finish_ok] at h
            simp only [Prod.mk.injEq] at h
            obtain ⟨h1, rfl, rfl, rfl⟩ := h
            rw [parseV6_iff] at hip
            rw [parsePort_iff] at hn
            exact ⟨⟨t, u, by rw [asc_lb, asc_rbc]; simp, hip, hn⟩, by cases port <;> simp_all [PortOk], h1, rfl⟩
          · cases h
        · cases h
    · rintro ⟨hi, hp, hl, rfl⟩
      cases p with
      | none =>
        obtain ⟨t', he, ht'⟩ := hi
        exfalso
        have h1 : (ascii "[" ++ t' ++ ascii "]").getLast? = some (asc ']') := List.getLast?_eq_some_iff.2 ⟨_, rfl⟩
        rw [← he] at h1
        have e : asc '[' :: t ++ asc ']' :: asc ':' :: u = (asc '[' :: t ++ [asc ']']) ++ asc ':' :: u := by simp
        rw [e] at h1
        exact hlast (last_after_colon _ _ h1)
      | some n =>
        obtain ⟨t', u', he, ht', hn⟩ := hi
        have he' : (asc '[' :: t ++ [asc ']']) ++ asc ':' :: u = (asc '[' :: t' ++ [asc ']']) ++ asc ':' :: u' := by
          rw [asc_lb, asc_rbc] at he
          simpa using he
        obtain ⟨h1, rfl⟩ := last_unique _ _ _ _ _ he' hu (portText_colon _ _ hn)
        have : t = t' := by simpa using h1
        subst this
        rw [if_neg (by rintro rfl; simp [PortOk] at hp)]
        simp only [(parseV6_iff _ _).2 ht', (parsePort_iff _ _).2 hn]
        rw [finish_ok]
        exact ⟨hl, rfl⟩
  | other _ h0 hl hn =>
    rw [bracket_other loc port s h0 hl hn]
    constructor
    · intro h; split at h <;> cases h
    · rintro ⟨hi, _⟩
      exfalso
      cases p with
      | none =>
        obtain ⟨t', rfl, ht'⟩ := hi
        exact hl (List.getLast?_eq_some_iff.2 ⟨_, rfl⟩)
      | some n =>
        obtain ⟨t', u, rfl, ht', hp⟩ := hi
        exact hn t' u (v6Text_ne_nil _ _ ht') (portText_colon _ _ hp) (by rw [asc_lb, asc_rbc]; simp)

theorem bracketPart_panic (loc port : TriAllow) (s : List UInt8) (hs : Str s) (h0 : s.head? = some (asc '[')) :
    bracketPart loc port s ≠ .panic := by
  have hb := brackets s h0
  cases hb with
  | closed t =>
    rw [bracket_closed loc port t hs]
    split
    · simp
    · split
      · exact finish_panic _ _ _ _
      · simp
  | port t u hu hlast ht =>
    rw [bracket_port loc port t u hs hu hlast ht]
    split
    · simp
    · split
      · split
        · exact finish_panic _ _ _ _
        · simp
      · simp
  | other _ h0 hl hn =>
    rw [bracket_other loc port s h0 hl hn]
    split <;> simp

theorem bracketPart_err (loc port : TriAllow) (s : List UInt8) (hs : Str s) (h0 : s.head? = some (asc '[')) (e : IpError)
    (he : bracketPart loc port s = .err e) :
    (e = .portMust → port = .must ∧ s.getLast? = some (asc ']')) ∧
    (e = .portDisallow → port = .disallow ∧ s.getLast? ≠ some (asc ']')) ∧
    (e = .localMust → loc = .must ∧ ∃ x p, BracketInput s x p ∧ isLocalV6 x = false) ∧
    (e = .localDisallow → loc = .disallow ∧ ∃ x p, BracketInput s x p ∧ isLocalV6 x = true) := by
  have hb := brackets s h0
  cases hb with
  | closed t =>
    rw [bracket_closed loc port t hs] at he
    split at he
    · rename_i hp
      cases he
      simp only [reduceCtorEq, false_implies, and_true, true_implies]
      exact ⟨hp, List.getLast?_eq_some_iff.2 ⟨_, rfl⟩⟩
    · split at he
      · rename_i ip hip
        rw [parseV6_iff] at hip
        have hi : BracketInput (asc '[' :: t ++ [asc ']']) ip none := ⟨t, rfl, hip⟩
        rw [finish_err] at he
        rcases he with ⟨h1, h2, rfl⟩ | ⟨h1, h2, rfl⟩
        · simp only [reduceCtorEq, false_implies, true_and, and_true, true_implies]
          exact ⟨h1, ip, _, hi, h2⟩
        · simp only [reduceCtorEq, false_implies, true_and, true_implies]
          exact ⟨h1, ip, _, hi, h2⟩
      · cases he; simp
  | port t u hu hlast ht =>
    have hgl : (asc '[' :: t ++ asc ']' :: asc ':' :: u).getLast? ≠ some (asc ']') := by
      have e : asc '[' :: t ++ asc ']' :: asc ':' :: u = (asc '[' :: t ++ [asc ']']) ++ asc ':' :: u := by simp
      intro h1
      rw [e] at h1
      exact hlast (last_after_colon _ _ h1)
    rw [bracket_port loc port t u hs hu hlast ht] at he
    split at he
    · rename_i hp
      cases he
      simp only [reduceCtorEq, false_implies, true_and, and_true, true_implies]
      exact ⟨hp, hgl⟩
    · split at he
      · rename_i ip hip
        split at he
        · rename_i n hn
          rw [parseV6_iff] at hip
          rw [parsePort_iff] at hn
          have hi : BracketInput (asc '[' :: t ++ asc ']' :: asc ':' :: u) ip (some n) :=
            ⟨t, u, by rw [asc_lb, asc_rbc]; simp, hip, hn⟩
          rw [finish_err] at he
          rcases he with ⟨h1, h2, rfl⟩ | ⟨h1, h2, rfl⟩
          · simp only [reduceCtorEq, false_implies, true_and, and_true, true_implies]
            exact ⟨h1, ip, _, hi, h2⟩
          · simp only [reduceCtorEq, false_implies, true_and, true_implies]
            exact ⟨h1, ip, _, hi, h2⟩
        · cases he; simp
      · cases he; simp
  | other _ h0 hl hn =>
    rw [bracket_other loc port s h0 hl hn] at he
    split at he
    · rename_i hp
      cases he
      simp only [reduceCtorEq, false_implies, true_and, and_true, true_implies]
      exact ⟨hp, hl⟩
    · cases he; simp

end Verif.Ip
