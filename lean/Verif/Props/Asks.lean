import Verif.Props.Order
import Verif.Proof.EmailRight
import Verif.Proof.Ldh
import Verif.Spec.Asks

/-!
# C93: the IDNA conversion is only asked about the name
-/

namespace Verif.Props.Asks

open Verif.Spec Verif.Spec.Order Verif.StdIp
open _root_.Verif.BaseN (strBytes)
open Verif.Domain (Idna ldh)
open Verif.Ip (strSlice strSliceFrom)
open Verif.Spec.Email (comment)
open Verif.Spec.Asks (NameIn)

/-- C93, `domain`: only the text before the port matters, and not if it is an IPv4 address and options tell addresses from names. -/
theorem C93_domain (o : Verif.Domain.Opts) (idna idna' : Idna) (cs : List Char) (d : List UInt8) (u : Option (List UInt8)) (h : Parts (strBytes cs) d u)
    (he : Verif.Spec.Domain.Plain o ∨ (¬ ∃ x, Verif.Spec.Domain.QuadDot d x) → idna d = idna' d) :
    Verif.Domain.parseStr o idna (strBytes cs) = Verif.Domain.parseStr o idna' (strBytes cs) ∧
    Verif.Domain.validateStr o idna (strBytes cs) = Verif.Domain.validateStr o idna' (strBytes cs) := by
  have key : Verif.Domain.parse o idna (strBytes cs) = Verif.Domain.parse o idna' (strBytes cs) := by
    unfold Verif.Domain.parse
    rw [Verif.Domain.splitPort_eq o.port _ d u ⟨cs, rfl⟩ ((Verif.Order.parts_iff _ _ _).1 h)]
    have e : Verif.Domain.domainPart o idna (strBytes cs) d u = Verif.Domain.domainPart o idna' (strBytes cs) d u := by
      unfold Verif.Domain.domainPart Verif.Domain.nameArm
      split
      · rename_i k
        rw [he (.inl k)]
      · cases hq : Verif.Domain.parseV4Dot d with
        | some x => rfl
        | none =>
          rw [he (.inr (by rintro ⟨x, hx⟩; exact (Verif.Domain.quadDot_none d).1 hq x hx))]
    split
    · rfl
    · split <;> split <;> first | rfl | exact e
  unfold Verif.Domain.parseStr Verif.Domain.validateStr
  rw [key]
  exact ⟨rfl, rfl⟩

/-- C93, `host`: only the text before the port matters, unless the string is an address or looks like one, or this text ends with a dot. -/
theorem C93_host (o : Verif.Host.Opts) (idna idna' : Idna) (cs : List Char) (d : List UInt8) (u : Option (List UInt8)) (h : Parts (strBytes cs) d u)
    (he : ¬ Looks6 (strBytes cs) → (∀ x : V4, d ≠ x.text) → (¬ ∃ c, d = c ++ ascii ".") → idna d = idna' d) :
    Verif.Host.parseStr o idna (strBytes cs) = Verif.Host.parseStr o idna' (strBytes cs) ∧
    Verif.Host.validateStr o idna (strBytes cs) = Verif.Host.validateStr o idna' (strBytes cs) := by
  have key : Verif.Host.parse o idna (strBytes cs) = Verif.Host.parse o idna' (strBytes cs) := by
    have hs : Verif.Ip.Str (strBytes cs) := ⟨cs, rfl⟩
    generalize strBytes cs = s at h he hs
    unfold Verif.Host.parse
    cases s with
    | nil => rfl
    | cons b s =>
      dsimp only
      by_cases hb : b = asc '['
      · rw [if_pos hb, if_pos hb]
      · rw [if_neg hb, if_neg hb]
        cases h6 : parseV6 (b :: s) with
        | some x => rfl
        | none =>
          have hl : ¬ Looks6 (b :: s) := by
            rintro (k | ⟨x, k⟩)
            · exact hb (by simpa using k)
            · rw [(parseV6_iff _ x).2 k] at h6; cases h6
          dsimp only
          unfold Verif.Host.namePart
          rw [Verif.Host.splitPort_eq o.port _ d u hs ((Verif.Order.parts_iff _ _ _).1 h)]
          have e : ∀ (f : Idna), (Out.ok (d, u) : Out Verif.Host.HostError _).bind (fun x => if x.1.getLast? = some (asc '.') then .err .invalid
              else match parseV4 x.1 with
                | some ip => Verif.Host.ipv4Arm o x.2 ip
                | none => Verif.Host.nameArm o f x.1 x.2) = if d.getLast? = some (asc '.') then .err .invalid
              else match parseV4 d with
                | some ip => Verif.Host.ipv4Arm o u ip
                | none => Verif.Host.nameArm o f d u := fun _ => rfl
          have e' : (if d.getLast? = some (asc '.') then .err .invalid
              else match parseV4 d with
                | some ip => Verif.Host.ipv4Arm o u ip
                | none => Verif.Host.nameArm o idna d u) = if d.getLast? = some (asc '.') then .err .invalid
              else match parseV4 d with
                | some ip => Verif.Host.ipv4Arm o u ip
                | none => Verif.Host.nameArm o idna' d u := by
            split
            · rfl
            · rename_i hdot
              cases h4 : parseV4 d with
              | some x => rfl
              | none =>
                dsimp only
                unfold Verif.Host.nameArm
                rw [he hl (fun x k => by rw [(parseV4_iff d x).2 k] at h4; cases h4) (fun k => hdot ((Verif.Domain.getLast_dot d).2 k))]
          split <;> split <;> first | rfl | exact e'
  unfold Verif.Host.parseStr Verif.Host.validateStr
  rw [key]
  exact ⟨rfl, rfl⟩

theorem slice_ok {ε : Type} (s t : List UInt8) (n : Nat) (h : (strSliceFrom s n : Out ε _) = .ok t) : t = s.drop n := by
  unfold strSliceFrom strSlice at h
  split at h
  · cases h
    exact List.take_of_length_le (by simp)
  · cases h

theorem first_paren (r : List UInt8) : ∃ d tail, r = d ++ tail ∧ asc '(' ∉ d ∧ (tail = [] ∨ tail.head? = some (asc '(')) := by
  induction r with
  | nil => exact ⟨[], [], rfl, by simp, .inl rfl⟩
  | cons b r ih =>
    by_cases hb : b = asc '('
    · exact ⟨[], b :: r, rfl, by simp, .inr (by simp [hb])⟩
    · obtain ⟨d, tail, e, h1, h2⟩ := ih
      refine ⟨b :: d, tail, by rw [e]; rfl, ?_, h2⟩
      simp only [List.mem_cons, not_or]
      exact ⟨fun k => hb k.symm, h1⟩

open Verif.Email in
theorem side_congr (o : Opts) (idna idna' : Idna) (t : List UInt8) (hs : Verif.Ip.Str t) (ht : t ≠ []) (offset : Int)
    (he : ∀ mid d post, t = mid ++ (d ++ post) → (mid = [] ∨ ∃ c, mid = ascii "(" ++ c ++ ascii ")") → (post = [] ∨ post.head? = some (asc '(')) →
      d ≠ [] → (mid ++ d).length ≤ 255 → asc '(' ∉ d → d.head? ≠ some (asc '[') → (¬ ∃ c, d = c ++ ascii ".") → idna d = idna' d) :
    domainSide o idna t offset = domainSide o idna' t offset := by
  unfold domainSide
  split
  · rfl
  rename_i hlen
  cases hl : leadComment o.comment 253 t with
  | err e => rfl
  | panic => rfl
  | ok x =>
    obtain ⟨n, c3⟩ := x
    obtain ⟨rest, h1, h2⟩ := (lead_ok _ _ _ hs ht n c3).1 hl
    have hn := h1.nonempty
    have htext := h1.text
    have hrest : Verif.Ip.Str rest := by
      rw [htext] at hs
      cases c3 with
      | none => exact hs
      | some c =>
        rw [comment_some] at hs
        exact (Verif.Ip.str_cut (asc '(' :: c) rest (asc ')') (by decide) hs).2
    subst htext h2
    cases rest with
    | nil => exact absurd rfl hn
    | cons b r =>
      have key : domainPart o idna (comment c3 ++ b :: r) (comment c3).length = domainPart o idna' (comment c3 ++ b :: r) (comment c3).length ∨
          b = asc '(' ∨ b = asc '[' := by
        by_cases hb1 : b = asc '('
        · exact .inr (.inl hb1)
        by_cases hb2 : b = asc '['
        · exact .inr (.inr hb2)
        refine .inl ?_
        by_cases ho : o.ip = .must
        · unfold domainPart
          rw [if_pos ho, if_pos ho]
        obtain ⟨d, tail, e, k1, k2⟩ := first_paren (b :: r)
        have hd : d.head? = some b := by
          cases d with
          | nil =>
            rcases k2 with rfl | k2
            · cases e
            · rw [List.nil_append] at e
              rw [← e] at k2
              exact absurd (by simpa using k2) hb1
          | cons x d => rw [List.cons_append] at e; cases e; rfl
        rw [e] at hrest hlen ⊢
        rw [domainPart_text o idna _ d tail k1 hrest k2 ho, domainPart_text o idna' _ d tail k1 hrest k2 ho]
        split
        · rfl
        · rename_i hdot
          rw [he (comment c3) d tail (by rw [e]) ?_ k2 ?_ ?_ k1 ?_ ?_]
          · cases c3 with
            | none => exact .inl rfl
            | some c => exact .inr ⟨c, rfl⟩
          · rintro rfl; cases hd
          · simp only [List.length_append] at hlen ⊢; omega
          · rw [hd]; simpa using hb2
          · exact fun k => hdot ((Verif.Domain.getLast_dot d).2 k)
      have hidx : (idx (comment c3 ++ b :: r) (comment c3).length : Out EmailError _) = .ok b := idx_cut _ _ _ _ rfl
      simp only [Out.bind_ok, hidx]
      rcases key with k | k | k
      · rw [k]
      · rw [if_pos k, if_pos k]
      · by_cases k' : b = asc '('
        · rw [if_pos k', if_pos k']
        · rw [if_neg k', if_neg k', if_pos k, if_pos k]

open Verif.Email in
/-- C93, `email`: only names after the `@` matter. -/
theorem C93_email (o : Opts) (idna idna' : Idna) (cs : List Char) (he : ∀ d, NameIn (strBytes cs) d → idna d = idna' d) :
    parseStr o idna (strBytes cs) = parseStr o idna' (strBytes cs) ∧ validateStr o idna (strBytes cs) = validateStr o idna' (strBytes cs) := by
  have hs : Verif.Ip.Str (strBytes cs) := ⟨cs, rfl⟩
  generalize strBytes cs = s at hs he
  have key : parse o idna s = parse o idna' s := by
    unfold parse
    split
    · rfl
    cases leadComment o.comment 62 s with
    | err e => rfl
    | panic => rfl
    | ok x =>
      obtain ⟨start, c1⟩ := x
      simp only [Out.bind_ok]
      cases localPart o.nonAscii s start with
      | err e => rfl
      | panic => rfl
      | ok l =>
        simp only [Out.bind_ok]
        cases afterLocal o s l.len with
        | err e => rfl
        | panic => rfl
        | ok x =>
          obtain ⟨len, c2⟩ := x
          simp only [Out.bind_ok]
          cases hb : (idx s len : Out EmailError _) with
          | err e => rfl
          | panic => rfl
          | ok b =>
            simp only [Out.bind_ok]
            split
            · rfl
            rename_i hat
            cases ht : (strSliceFrom s (len + 1) : Out EmailError _) with
            | err e => rfl
            | panic => rfl
            | ok t =>
              simp only [Out.bind_ok]
              have hb' : s[len]? = some b := by
                unfold idx at hb
                cases k : s[len]? with
                | none => rw [k] at hb; cases hb
                | some x => rw [k] at hb; cases hb; rfl
              have h1 : b = asc '@' := Classical.byContradiction fun k => hat (.inl k)
              have h2 : len + 1 ≠ s.length := fun k => hat (.inr k)
              obtain ⟨hlt, hget⟩ := List.getElem?_eq_some_iff.1 hb'
              have e : s = s.take len ++ asc '@' :: t := by
                rw [slice_ok _ _ _ ht, ← h1, ← hget]
                simp
              have hst : Verif.Ip.Str t := by
                rw [e] at hs
                exact (Verif.Ip.str_cut _ _ _ (by decide) hs).2
              have htne : t ≠ [] := by
                rintro rfl
                have := congrArg List.length e
                simp at this
                omega
              rw [side_congr o idna idna' t hst htne]
              intro mid d post k1 k2 k3 k4 k5 k6 k7 k8
              exact he d ⟨s.take len, mid, post, by rw [← k1]; exact e, k2, k3, k4, k5, k6, k7, k8⟩
  unfold parseStr validateStr
  rw [key]
  exact ⟨rfl, rfl⟩

/-- C93: conversions that agree on ASCII texts make the three validators agree on ASCII texts. -/
theorem C93_ascii (o : Verif.Domain.Opts) (o' : Verif.Host.Opts) (o'' : Verif.Email.Opts) (idna idna' : Idna) (cs : List Char)
    (hc : ∀ b ∈ strBytes cs, b.toNat < 128) (he : ∀ d : List UInt8, (∀ b ∈ d, b.toNat < 128) → idna d = idna' d) :
    Verif.Domain.parseStr o idna (strBytes cs) = Verif.Domain.parseStr o idna' (strBytes cs) ∧
    Verif.Host.parseStr o' idna (strBytes cs) = Verif.Host.parseStr o' idna' (strBytes cs) ∧
    Verif.Email.parseStr o'' idna (strBytes cs) = Verif.Email.parseStr o'' idna' (strBytes cs) := by
  obtain ⟨d, u, h, -⟩ := Verif.Props.Order.C84_parts (strBytes cs)
  have hd : idna d = idna' d := by
    refine he d fun b hb => hc b ?_
    rcases h with ⟨-, h, -⟩ | ⟨t, -, h, -⟩
    · rw [h]; exact hb
    · rw [h]; simp [hb]
  refine ⟨(C93_domain o idna idna' cs d u h fun _ => hd).1, (C93_host o' idna idna' cs d u h fun _ _ _ => hd).1, (C93_email o'' idna idna' cs ?_).1⟩
  rintro d ⟨pre, mid, post, h, -⟩
  refine he d fun b hb => hc b ?_
  rw [h]
  simp [hb]

/-- A conversion that knows one name, and one that knows none. -/
def only (n : List UInt8) : Idna := fun d => if d = n then some n else none

/-- The text asked about, and that the answer matters. -/
example : Parts (ascii "x.yy:80") (ascii "x.yy") (some (ascii "80")) ∧ NameIn (ascii "a@(c)x.yy(d)") (ascii "x.yy") ∧
    Verif.Host.parseStr ⟨.allow, .allow, .allow⟩ (only (ascii "x.yy")) (ascii "x.yy:80") = .ok ⟨.domain (ascii "x.yy"), none, some 80⟩ ∧
    Verif.Host.parseStr ⟨.allow, .allow, .allow⟩ (only (ascii "x.yy:80")) (ascii "x.yy:80") = .err .invalid ∧
    (Verif.Email.parseStr ⟨.allow, .allow, .allow, .allow, .allow, true⟩ (only (ascii "x.yy")) (ascii "a@(c)x.yy(d)")).void = .ok () ∧
    (Verif.Email.parseStr ⟨.allow, .allow, .allow, .allow, .allow, true⟩ (only (ascii "(c)x.yy(d)")) (ascii "a@(c)x.yy(d)")).void = .err .invalid := by
  refine ⟨.inr ⟨ascii "80", rfl, by decide +kernel, by decide +kernel⟩, ⟨ascii "a", ascii "(c)", ascii "(d)", by decide +kernel, .inr ⟨ascii "c", by decide +kernel⟩,
    .inr (by decide +kernel), by decide +kernel, by decide +kernel, by decide +kernel, by decide +kernel, ?_⟩, by decide +kernel, by decide +kernel,
    by decide +kernel, by decide +kernel⟩
  rw [← Verif.Domain.getLast_dot]
  decide +kernel

end Verif.Props.Asks
