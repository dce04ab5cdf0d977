import Verif.Spec.Control
import Verif.Proof.Longest

/-!
# Characters of accepted texts
-/

namespace Verif.Control

open Verif.Spec Verif.Spec.Ip Verif.Spec.Control Verif.StdIp
open Verif.BaseN (strBytes)

theorem not_control (b : UInt8) (h : Graphic b) : ¬ Control b := by
  unfold Control Graphic at *
  omega

theorem dec_graphic (n : Nat) (h : n < 256) : ∀ b ∈ dec n, Graphic b := by
  have : ∀ n : Fin 256, ∀ b ∈ dec n.val, Graphic b := by decide +kernel
  exact this ⟨n, h⟩

theorem append_graphic (s t : List UInt8) (hs : ∀ b ∈ s, Graphic b) (ht : ∀ b ∈ t, Graphic b) : ∀ b ∈ s ++ t, Graphic b :=
  fun b hb => (List.mem_append.1 hb).elim (hs b) (ht b)

theorem dot_graphic : ∀ b ∈ ascii ".", Graphic b := by decide
theorem colon_graphic : ∀ b ∈ ascii ":", Graphic b := by decide

theorem dotted_graphic (a b c d : Nat) (ha : a < 256) (hb : b < 256) (hc : c < 256) (hd : d < 256) : ∀ x ∈ dotted a b c d, Graphic x :=
  append_graphic _ _ (append_graphic _ _ (append_graphic _ _ (append_graphic _ _ (append_graphic _ _ (append_graphic _ _
    (dec_graphic a ha) dot_graphic) (dec_graphic b hb)) dot_graphic) (dec_graphic c hc)) dot_graphic) (dec_graphic d hd)

theorem v4_graphic (x : V4) : ∀ b ∈ x.text, Graphic b :=
  dotted_graphic _ _ _ _ x.a.toNat_lt x.b.toNat_lt x.c.toNat_lt x.d.toNat_lt

theorem symbols_graphic (case : CaseOption) : ∀ b ∈ Hex.symbols case, Graphic b := by cases case <;> decide

theorem group_graphic (t : List UInt8) (g : Nat) (h : Group t g) : ∀ b ∈ t, Graphic b := fun b hb => symbols_graphic .any b (h.2.2.1 b hb)

theorem groups_graphic (q : Bool) (t : List UInt8) (gs : List Nat) (h : Groups q t gs) : ∀ b ∈ t, Graphic b := by
  induction h with
  | group h => exact group_graphic _ _ h
  | quad ha hb hc hd => exact dotted_graphic _ _ _ _ ha hb hc hd
  | cons h _ ih => exact append_graphic _ _ (append_graphic _ _ (group_graphic _ _ h) colon_graphic) ih

theorem groups0_graphic (q : Bool) (t : List UInt8) (gs : List Nat) (h : Groups0 q t gs) : ∀ b ∈ t, Graphic b := by
  rcases h with ⟨rfl, -, -⟩ | h
  · nofun
  · exact groups_graphic q t gs h

theorem v6_graphic (s : List UInt8) (segs : List Nat) (h : V6Text s segs) : ∀ b ∈ s, Graphic b := by
  rcases h with ⟨q, h, -⟩ | ⟨q, h, t, hs, ts, rfl, h1, h2, -, -⟩
  · exact groups_graphic q s segs h
  · exact append_graphic _ _ (append_graphic _ _ (groups0_graphic _ _ _ h1) (by decide)) (groups0_graphic _ _ _ h2)

theorem digits_graphic : ∀ b ∈ IntV.decDigits, Graphic b := by decide

theorem numeral_graphic (signed : Bool) (s : List UInt8) (i : Int) (h : IntV.Numeral signed s i) : ∀ b ∈ s, Graphic b := by
  obtain ⟨ds, -, hd, h⟩ := h
  have hg : ∀ b ∈ ds, Graphic b := fun b hb => digits_graphic b (hd b hb)
  have hc : ∀ x : UInt8, Graphic x → ∀ b ∈ x :: ds, Graphic b := fun x hx b hb => (List.mem_cons.1 hb).elim (fun e => e ▸ hx) (hg b)
  rcases h with ⟨rfl | rfl, -⟩ | ⟨-, rfl, -⟩
  · exact hg
  · exact hc _ (by decide)
  · exact hc _ (by decide)

theorem port_graphic (u : List UInt8) (n : Nat) (h : PortText u n) : ∀ b ∈ u, Graphic b := numeral_graphic _ _ _ h.1

theorem v4Input_graphic (s : List UInt8) (x : V4) (p : Option Nat) (h : V4Input s x p) : ∀ b ∈ s, Graphic b := by
  cases p with
  | none => rw [show s = x.text from h]; exact v4_graphic x
  | some n =>
    obtain ⟨u, rfl, hu⟩ := h
    exact append_graphic _ _ (append_graphic _ _ (v4_graphic x) colon_graphic) (port_graphic _ _ hu)

theorem v6Input_graphic (s : List UInt8) (x : V6) (p : Option Nat) (h : V6Input s x p) : ∀ b ∈ s, Graphic b := by
  cases p with
  | none =>
    rcases h with h | ⟨t, rfl, h⟩
    · exact v6_graphic _ _ h
    · exact append_graphic _ _ (append_graphic _ _ (by decide) (v6_graphic _ _ h)) (by decide)
  | some n =>
    obtain ⟨t, u, rfl, ht, hu⟩ := h
    exact append_graphic _ _ (append_graphic _ _ (append_graphic _ _ (by decide) (v6_graphic _ _ ht)) (by decide)) (port_graphic _ _ hu)

theorem cut_graphic (sep : SeparatorOption) (hs : ∀ b, sep = .must b ∨ sep = .allow b → Graphic b) (sizes : List Nat) (ds text : List UInt8)
    (h : Hex.Cut sep sizes ds text) (hd : ∀ b ∈ ds, Graphic b) : ∀ b ∈ text, Graphic b := by
  induction sizes generalizing ds text with
  | nil => obtain ⟨-, rfl⟩ := h; nofun
  | cons n ns ih =>
    cases ns with
    | nil => obtain ⟨-, rfl⟩ := h; exact hd
    | cons m ms =>
      obtain ⟨g, ds', s, text', -, rfl, rfl, ht, hc⟩ := h
      have hg : ∀ b ∈ s, Graphic b := by
        cases sep with
        | allow x =>
          rcases ht with rfl | ⟨rfl, -⟩
          · simpa using hs x (.inr rfl)
          · nofun
        | must x => cases ht; simpa using hs x (.inl rfl)
        | disallow => cases ht; nofun
      exact append_graphic _ _ (append_graphic _ _ (fun b hb => hd b (List.mem_append_left _ hb)) hg)
        (ih ds' text' hc fun b hb => hd b (List.mem_append_right _ hb))

theorem alphabet_graphic (K : Props.BaseN.Kind) : ∀ b ∈ K.spec.alphabet, Graphic b := by
  cases K <;> (unfold Props.BaseN.Kind.spec; decide)

theorem nopad_graphic (K : Props.BaseN.Kind) (d : List UInt8) : ∀ b ∈ BaseN.encodeNopad K.spec d, Graphic b :=
  fun b hb => alphabet_graphic K b (Verif.BaseN.encodeNopad_mem K.tails d b hb)

theorem pads_graphic (k : Nat) : ∀ b ∈ List.replicate k BaseN.padByte, Graphic b := fun b hb => by
  rw [List.eq_of_mem_replicate hb]; decide

theorem pad_graphic (K : Props.BaseN.Kind) (d : List UInt8) : ∀ b ∈ BaseN.encodePad K.spec d, Graphic b :=
  append_graphic _ _ (nopad_graphic K d) (pads_graphic _)

theorem accepts_graphic (K : Props.BaseN.Kind) (pad : TriAllow) (v : List UInt8) (h : BaseN.Accepts K.spec pad v) : ∀ b ∈ v, Graphic b := by
  obtain ⟨-, body, k, rfl, hb, -⟩ := h
  exact append_graphic _ _ (fun b h => alphabet_graphic K b (hb b h)) (pads_graphic _)

theorem decodes_graphic (K : Props.BaseN.Kind) (pad : TriAllow) (v d : List UInt8) (h : BaseN.Decodes K.spec pad v d) : ∀ b ∈ v, Graphic b := by
  have hp : BaseN.PaddedParts K.spec v d → ∀ b ∈ v, Graphic b := by
    rintro ⟨ds, -, -, rfl, -⟩ b hb
    obtain ⟨x, -, hx⟩ := List.mem_flatMap.1 hb
    exact pad_graphic K x b hx
  have hn : d ≠ [] ∧ v = BaseN.encodeNopad K.spec d → ∀ b ∈ v, Graphic b := by
    rintro ⟨-, rfl⟩
    exact nopad_graphic K d
  cases pad with
  | allow =>
    simp only [BaseN.Decodes] at h
    split at h
    · exact hp h
    · exact hn h
  | must => exact hp h
  | disallow => exact hn h

/-! ## One line -/

theorem oneLine_graphic (s : List UInt8) (h : ∀ b ∈ s, Graphic b) : OneLine s := fun b hb hc => absurd hc (not_control b (h b hb))

theorem oneLine_append (s t : List UInt8) : OneLine (s ++ t) ↔ OneLine s ∧ OneLine t := by
  constructor
  · exact fun h => ⟨fun b hb => h b (List.mem_append_left _ hb), fun b hb => h b (List.mem_append_right _ hb)⟩
  · exact fun h b hb => (List.mem_append.1 hb).elim (h.1 b) (h.2 b)

theorem refused (idna : List UInt8 → Option (List UInt8)) (hi : Refuses idna) (h a : List UInt8) (e : idna h = some a) : OneLine h :=
  fun b hb hc => absurd hc (hi h a e b hb)

theorem atext_graphic : ∀ b ∈ Email.atext, Graphic b := by decide
theorem specials_graphic : ∀ b ∈ Email.specials, Graphic b := by decide

theorem wide_oneLine (na : Allow) (b : UInt8) (h : Email.Wide na b) : ¬ Control b := by
  have := h.2
  unfold Control
  omega

theorem local_oneLine (o : Email.Opts) (c1 : Option (List UInt8)) (q : Bool) (t : List UInt8) (h : Email.LocalText o c1 q t) : OneLine t := by
  intro b hb hc
  cases q with
  | false =>
    rcases (h.unquoted rfl).1.2.2.1 b hb with h | rfl | h
    · exact absurd hc (not_control b (atext_graphic b h))
    · exact absurd hc (by decide)
    · exact absurd hc (wide_oneLine _ b h)
  | true =>
    obtain ⟨pre, post, rfl⟩ := List.append_of_mem hb
    rcases (h.quoted rfl).1.2.1 pre b post rfl with h | h | h | h
    · exact absurd hc (not_control b (atext_graphic b h))
    · exact (by decide : ∀ b ∈ ascii ".\\ \t", Control b → b = asc '\t') b h hc
    · exact absurd hc (wide_oneLine _ b h)
    · exact absurd hc (not_control b (specials_graphic b h.1))

theorem hostText_oneLine (idna : List UInt8 → Option (List UInt8)) (hi : Refuses idna) (h : List UInt8) (x : Host.Host)
    (e : Email.HostText idna h x) : OneLine h := by
  cases e with
  | ipv4 => exact oneLine_graphic _ (append_graphic _ _ (append_graphic _ _ (by decide) (v4_graphic _)) (by decide))
  | ipv6 h => exact oneLine_graphic _ (append_graphic _ _ (append_graphic _ _ (by decide) (v6_graphic _ _ h)) (by decide))
  | domain _ _ _ _ h => exact refused idna hi _ _ h

/-- An ASCII byte of a string is a character of it. -/
theorem ascii_mem (s : List Char) (b : UInt8) (hb : b ∈ strBytes s) (h : b.toNat < 128) : ∃ c ∈ s, b = asc c ∧ b.toNat = c.toNat := by
  obtain ⟨c, hcs, hb⟩ := List.mem_flatMap.1 hb
  refine ⟨c, hcs, ?_⟩
  by_cases hlt : c.toNat < 128
  · rw [Utf8.encode_ascii hlt, List.mem_singleton] at hb
    subst hb
    refine ⟨rfl, ?_⟩
    simp [asc, UInt8.toNat_ofNat']
    omega
  · obtain ⟨x, t, e, h1, -, h2⟩ := Utf8.encode_wide (by omega : 128 ≤ c.toNat)
    rw [e] at hb
    rcases List.mem_cons.1 hb with rfl | hb
    · omega
    · have := h2 b hb; omega

theorem clean_oneLine (s : List Char) (h : Line.Clean .line s) : OneLine (strBytes s) := by
  intro b hb hc
  have hlt : b.toNat < 128 := by unfold Control at hc; omega
  obtain ⟨c, hcs, rfl, e⟩ := ascii_mem s b hb hlt
  by_cases ht : c = '\t'
  · rw [ht]
  · refine absurd ⟨?_, ht, nofun⟩ (h c hcs)
    unfold Control at hc
    omega

end Verif.Control
