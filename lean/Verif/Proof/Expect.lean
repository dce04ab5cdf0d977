import Verif.Spec.Expect
import Verif.Props.Generated

/-!
# Lemmas about the texts of expectation
-/

namespace Verif.Expect

open Verif Verif.Generated Verif.Attr Verif.Derive Verif.Spec.Generated Verif.Spec.Expect
open Verif.Range (Bounds RangeOption)
open Verif.BaseN (strBytes)

variable {φ κ N U V ε : Type}

theorem has_vocab {t : List (Piece φ κ)} {ws vocab : List String} (hv : ∀ w, .words w ∈ t → w ∈ vocab) (h : Has t ws) :
    (ws.any fun w => decide (w ∈ vocab)) = true := by
  obtain ⟨w, h1, h2⟩ := h
  exact List.any_eq_true.2 ⟨w, h1, by simpa using hv w h2⟩

/-- The words of the shared end. -/
def endVocab : List String :=
  [" with an optional port", " with a port", " without ports", " which must be local", " and with a port", " and without ports",
    " which must not be local", " and must be with a port", " and must be without ports"]

theorem localPort_vocab (l p : TriAllow) (w : String) (h : .words w ∈ (localPort l p : List (Piece φ κ))) : w ∈ endVocab := by
  cases l <;> cases p <;> simp only [localPort, List.mem_cons, List.not_mem_nil, or_false, Piece.words.injEq] at h <;>
    first | (subst h; decide) | (rcases h with h | h <;> subst h <;> decide)

theorem localPort_has (l p : TriAllow) :
    (Has (localPort l p : List (Piece φ κ)) withPort → p = .must) ∧ (Has (localPort l p : List (Piece φ κ)) withoutPort → p = .disallow) ∧
    (Has (localPort l p : List (Piece φ κ)) [" which must be local"] → l = .must) ∧
    (Has (localPort l p : List (Piece φ κ)) [" which must not be local"] → l = .disallow) := by
  cases l <;> cases p <;> simp [localPort, Has, withPort, withoutPort]

theorem has_append {t u : List (Piece φ κ)} {ws : List String} : Has (t ++ u) ws ↔ Has t ws ∨ Has u ws := by
  simp only [Has, List.mem_append]
  grind

theorem has_cons {w : String} {u : List (Piece φ κ)} {ws : List String} : Has (.words w :: u) ws ↔ w ∈ ws ∨ Has u ws := by
  simp only [Has, List.mem_cons, Piece.words.injEq]
  grind

theorem has_other {p : Piece φ κ} {u : List (Piece φ κ)} {ws : List String} (h : ∀ w, p ≠ .words w) : Has (p :: u) ws ↔ Has u ws := by
  simp only [Has, List.mem_cons]
  grind

theorem has_nil {ws : List String} : ¬ Has ([] : List (Piece φ κ)) ws := by simp [Has]


theorem head_has {w : String} {t u : List (Piece φ κ)} (h : t = .words w :: u) : Has t [w] := ⟨w, by simp, by simp [h]⟩

theorem append_has {w : String} {t u v : List (Piece φ κ)} (h : t = .words w :: u ++ v) : Has t [w] := ⟨w, by simp, by simp [h]⟩

/-- None of the words for encodings is in the vocabulary. -/
def plainVocab (vocab : List String) : Bool :=
  notations.all fun n => ["a " ++ n.1 ++ " string or data", "a " ++ n.1 ++ " string or data with padding",
    "a " ++ n.1 ++ " string or data without padding"].all fun w => decide (w ∉ vocab)

theorem no_symbols {vocab : List String} {t : List (Piece φ κ)} (hv : ∀ w, .words w ∈ t → w ∈ vocab) (hn : plainVocab vocab = true)
    (n : String × Spec.BaseN.Notation) (h1 : n ∈ notations) (ws : List String) (hw : ws ⊆ ["a " ++ n.1 ++ " string or data",
      "a " ++ n.1 ++ " string or data with padding", "a " ++ n.1 ++ " string or data without padding"]) : ¬ Has t ws := by
  rintro ⟨w, h2, h3⟩
  have := List.all_eq_true.1 (List.all_eq_true.1 hn n h1) w (hw h2)
  simp only [decide_eq_true_eq] at this
  exact this (hv w h3)

theorem no_groups {vocab : List String} {t : List (Piece φ κ)} (hv : ∀ w, .words w ∈ t → w ∈ vocab) (hn : (groups.all fun g => decide (g.1 ∉ vocab)) = true)
    (g : String × List Nat) (h1 : g ∈ groups) : ¬ Has t [g.1] := by
  rintro ⟨w, h2, h3⟩
  have := List.all_eq_true.1 hn g h1
  simp only [decide_eq_true_eq] at this
  rw [List.mem_singleton.1 h2] at h3
  exact this (hv _ h3)

/-- Disposes of the fields of `Truthful` whose words are not in the vocabulary, given that no countries are named. -/
syntax "silence " term:max ppSpace term:max : tactic
macro_rules
  | `(tactic| silence $hv $hc) => `(tactic| (constructor; all_goals first
    | (intro h; exact absurd (has_vocab $hv h) (by decide))
    | (exact fun n h1 h => absurd h (no_symbols $hv (by decide) n h1 _ (by simp)))
    | (exact fun g h1 _ h _ => absurd h (no_groups $hv (by decide) g h1))
    | (intro r h; exact absurd (has_vocab $hv (head_has h)) (by decide))
    | (intro r n h; exact absurd (has_vocab $hv (append_has h)) (by decide))
    | (intro r n m h; exact absurd (has_vocab $hv (head_has h)) (by decide))
    | (intro cs h; exact absurd h ($hc cs))
    | skip))

theorem localPort_countries (l p : TriAllow) (cs : List κ) : Piece.countries cs ∉ (localPort l p : List (Piece φ κ)) := by
  cases l <;> cases p <;> simp [localPort]

/-! ## Encodings -/

theorem pad_length (L : Spec.BaseN.Notation) (hb : 0 < L.block) (ds : List (List UInt8)) : (ds.flatMap (Spec.BaseN.encodePad L)).length % L.block = 0 := by
  induction ds with
  | nil => simp
  | cons d ds ih =>
    have h : (Spec.BaseN.encodePad L d).length % L.block = 0 := by
      have := (BaseN.padCount hb (Spec.BaseN.encodeNopad L d).length).2
      unfold Spec.BaseN.encodePad
      simpa using this
    rw [List.flatMap_cons, List.length_append, Nat.add_mod, h, ih]
    simp

theorem pad_symbols (L : Spec.BaseN.Notation) (T : BaseN.Tails L) (ds : List (List UInt8)) :
    ∀ b ∈ ds.flatMap (Spec.BaseN.encodePad L), b ∈ L.alphabet ∨ b = asc '=' := by
  intro b hb
  obtain ⟨d, -, hb⟩ := List.mem_flatMap.1 hb
  unfold Spec.BaseN.encodePad at hb
  rcases List.mem_append.1 hb with hb | hb
  · exact .inl (BaseN.encodeNopad_mem T d b hb)
  · exact .inr (List.eq_of_mem_replicate hb)

theorem base_facts (L : Spec.BaseN.Notation) (T : BaseN.Tails L) (hb : 0 < L.block) (he : asc '=' ∉ L.alphabet) (pad : TriAllow) (v : List UInt8)
    (h : Spec.BaseN.Accepts L pad v ∨ ∃ d, Spec.BaseN.Decodes L pad v d) :
    (∀ b ∈ v, b ∈ L.alphabet ∨ b = asc '=') ∧ (pad = .must → v.length % L.block = 0) ∧ (pad = .disallow → asc '=' ∉ v) := by
  rcases h with ⟨-, body, k, rfl, h1, h2⟩ | ⟨d, h⟩
  · refine ⟨fun b hb => ?_, fun hp => ?_, fun hp hc => ?_⟩
    · rcases List.mem_append.1 hb with hb | hb
      · exact .inl (h1 b hb)
      · exact .inr (List.eq_of_mem_replicate hb)
    · rcases h2 with ⟨-, h2⟩ | ⟨-, -, -, h2, -⟩
      · exact h2 hp
      · exact h2
    · rcases h2 with ⟨rfl, -⟩ | ⟨-, -, h2, -⟩
      · exact he (h1 _ (by simpa using hc))
      · exact h2 hp
  · have parts : Spec.BaseN.PaddedParts L v d → (∀ b ∈ v, b ∈ L.alphabet ∨ b = asc '=') ∧ v.length % L.block = 0 := by
      rintro ⟨ds, -, -, rfl, -⟩
      exact ⟨pad_symbols L T ds, pad_length L hb ds⟩
    have plain : v = Spec.BaseN.encodeNopad L d → (∀ b ∈ v, b ∈ L.alphabet) := by
      rintro rfl
      exact BaseN.encodeNopad_mem T d
    cases pad with
    | must =>
      obtain ⟨h1, h2⟩ := parts h
      exact ⟨h1, fun _ => h2, nofun⟩
    | disallow =>
      have h1 := plain h.2
      exact ⟨fun b hb => .inl (h1 b hb), nofun, fun _ hc => he (h1 _ hc)⟩
    | allow =>
      simp only [Spec.BaseN.Decodes] at h
      refine ⟨?_, nofun, nofun⟩
      split at h
      · exact (parts h).1
      · exact fun b hb => .inl (plain h.2 b hb)

/-! ## Dotted quads -/

theorem quad_hostPort (s : List UInt8) (x : StdIp.V4) (n : Option Nat) (h : Spec.Ip.V4Input s x n) :
    ∃ d v4, Spec.Domain.HostPort s d n ∧ Spec.Domain.QuadDot d v4 := by
  cases n with
  | none =>
    refine ⟨s, x, ⟨rfl, ?_⟩, .inl h⟩
    rw [show s = x.text from h]
    exact Ip.text_no_colon x
  | some n =>
    obtain ⟨u, h1, h2⟩ := h
    exact ⟨x.text, x, ⟨u, h1, h2⟩, .inl rfl⟩

theorem quad_many (s d : List UInt8) (x : StdIp.V4) (n : Option Nat) (h : Spec.Domain.HostPort s d n) (hq : Spec.Domain.QuadDot d x) :
    Spec.Domain.ManyLabels s := by
  have ht : ∃ l r, x.text = l ++ ascii "." ++ r :=
    ⟨Spec.Ip.dec x.a.toNat ++ ascii "." ++ Spec.Ip.dec x.b.toNat ++ ascii "." ++ Spec.Ip.dec x.c.toNat, Spec.Ip.dec x.d.toNat, rfl⟩
  obtain ⟨l, r, ht⟩ := ht
  have hl := Domain.text_no_final_dot x
  have nodot : ∀ t : List UInt8, t.getLast? ≠ some (asc '.') → ¬ ∃ c, t = c ++ ascii "." := by
    rintro t h ⟨c, rfl⟩
    exact h (by simp [ascii])
  cases n with
  | none =>
    obtain ⟨rfl, -⟩ := h
    rcases hq with rfl | rfl
    · exact ⟨l, r, .inr ⟨ht, nodot _ hl⟩⟩
    · exact ⟨l, r, .inl (by rw [← ht])⟩
  | some n =>
    obtain ⟨u, rfl, hu⟩ := h
    have hu1 := (Ip.portText_bytes u n hu).1
    have hu2 : asc '.' ∉ u := Ip.portText_no _ (by decide) u n hu
    have hlast : ∀ t, ¬ ∃ c, t ++ u = c ++ ascii "." := by
      intro t
      refine nodot _ ?_
      rw [List.getLast?_append]
      intro hc
      cases hl : u.getLast? with
      | none => exact hu1 (List.getLast?_eq_none_iff.1 hl)
      | some b =>
        rw [hl] at hc
        cases hc
        exact hu2 (List.mem_of_getLast? hl)
    rcases hq with rfl | rfl
    · exact ⟨l, r ++ ascii ":" ++ u, .inr ⟨by rw [ht]; simp [List.append_assoc], hlast _⟩⟩
    · exact ⟨l, r ++ ascii "." ++ ascii ":" ++ u, .inr ⟨by rw [ht]; simp [List.append_assoc], hlast _⟩⟩

/-- A local name has one label. -/
theorem local_one (a : List UInt8) (h : Spec.Domain.LocalName a) : ¬ Spec.Domain.ManyLabels a := by
  rintro ⟨l, r, h2⟩
  obtain ⟨b, h1, hb⟩ := h
  have := Domain.stem_unique a _ _ h1 h2
  subst this
  have hd : asc '.' ∈ (l ++ ascii "." ++ r).map Spec.Domain.lowered := List.mem_map.2 ⟨asc '.', by simp [ascii], by decide⟩
  rw [hb] at hd
  revert hd
  decide

variable [LinearOrder φ]

/-- Addresses. -/
theorem ip_truthful (L : Libs φ κ N U V ε) (v : Validator) (a : IpAttribute) (t : List (Piece φ κ)) (ht : expect (.ip v a) = some t) (s : List Char)
    (x : Value φ κ N U V) (h : Means L (.ip v a) s x) : Truthful L t s x := by
  have vocab (w0 w : String) (h : .words w ∈ (.words w0 :: localPort a.loc a.port : List (Piece φ κ))) : w ∈ w0 :: endVocab := by
    rcases List.mem_cons.1 h with h | h
    · cases h; simp
    · exact .tail _ (localPort_vocab _ _ _ h)
  have hc (w0 : String) (cs : List κ) : Piece.countries cs ∉ (.words w0 :: localPort a.loc a.port : List (Piece φ κ)) := by
    simp [localPort_countries]
  obtain ⟨hp, hnp, hl, hnl⟩ := localPort_has (φ := φ) (κ := κ) a.loc a.port
  have options (w0 : String) (hw : w0 ∈ ["an IP string", "an IPv4 string", "an IPv6 string"]) (h1 : Spec.Ip.PortOk a.port (portOf x))
      (h2 : Spec.Ip.LocalOk a.loc (LocalValue L s x)) : let t := (.words w0 :: localPort a.loc a.port : List (Piece φ κ));
      (Has t withPort → portOf x ≠ none) ∧ (Has t withoutPort → portOf x = none) ∧ (Has t [" which must be local"] → LocalValue L s x) ∧
      (Has t [" which must not be local"] → ¬ LocalValue L s x) := by
    simp only [List.mem_cons, List.not_mem_nil, or_false] at hw
    refine ⟨fun h => ?_, fun h => ?_, fun h => ?_, fun h => ?_⟩
    · have := hp ((has_cons.1 h).resolve_left (by rcases hw with rfl | rfl | rfl <;> decide))
      rw [this] at h1; exact h1
    · have := hnp ((has_cons.1 h).resolve_left (by rcases hw with rfl | rfl | rfl <;> decide))
      rw [this] at h1; exact h1
    · have := hl ((has_cons.1 h).resolve_left (by rcases hw with rfl | rfl | rfl <;> decide))
      rw [this] at h2; exact h2
    · have := hnl ((has_cons.1 h).resolve_left (by rcases hw with rfl | rfl | rfl <;> decide))
      rw [this] at h2; exact h2
  simp only [expect] at ht
  split at ht
  · cases ht
    cases x <;> simp [Means] at h
    obtain ⟨h1, h2, h3⟩ := h
    obtain ⟨o1, o2, o3, o4⟩ := options "an IP string" (by decide) h2 h3
    silence (vocab _) (hc _)
    · exact o1
    · exact o2
    · exact o3
    · exact o4
    · exact fun _ => ⟨_, h1⟩
  · cases ht
    cases x <;> simp [Means] at h
    obtain ⟨h1, h2, h3⟩ := h
    obtain ⟨o1, o2, o3, o4⟩ := options "an IPv4 string" (by decide) h2 h3
    silence (vocab _) (hc _)
    · exact o1
    · exact o2
    · exact o3
    · exact o4
    · exact fun _ => quad_hostPort _ _ _ h1
  · cases ht
    cases x <;> simp [Means] at h
    obtain ⟨h1, h2, h3⟩ := h
    obtain ⟨o1, o2, o3, o4⟩ := options "an IPv6 string" (by decide) h2 h3
    silence (vocab _) (hc _)
    · exact o1
    · exact o2
    · exact o3
    · exact o4
    · exact fun _ => ⟨_, h1⟩
  · cases ht

/-- Hosts. -/
theorem host_truthful (L : Libs φ κ N U V ε) (a : HostAttribute) (s : List Char) (x : Value φ κ N U V) (h : Means L (.host a) s x) :
    Truthful L (hostExpect a) s x := by
  obtain ⟨hp, hnp, hl, hnl⟩ := localPort_has (φ := φ) (κ := κ) a.loc a.port
  let words := ["a non-fully-qualified ", "and at-least-two-labels ", "and one-label ", "domain name or an IP string"]
  obtain ⟨pre, ht, hw, hcs, h1, h2⟩ : ∃ pre : List (Piece φ κ), hostExpect a = pre ++ localPort a.loc a.port ∧ (∀ w, .words w ∈ pre → w ∈ words) ∧
      (∀ cs, .countries cs ∉ pre) ∧ (Has pre twoLabels → a.atl = .must) ∧ (Has pre oneLabel → a.atl = .disallow) := by
    unfold hostExpect
    cases a.atl
    · exact ⟨[.words "a non-fully-qualified ", .words "domain name or an IP string"], rfl, by simp [words], by simp, by simp [Has, twoLabels], by simp [Has, oneLabel]⟩
    · exact ⟨[.words "a non-fully-qualified ", .words "and at-least-two-labels ", .words "domain name or an IP string"], rfl, by simp [words], by simp,
        by simp, by simp [Has, oneLabel]⟩
    · exact ⟨[.words "a non-fully-qualified ", .words "and one-label ", .words "domain name or an IP string"], rfl, by simp [words], by simp,
        by simp [Has, twoLabels], by simp⟩
  rw [ht]
  have vocab (w : String) (h : .words w ∈ (pre ++ localPort a.loc a.port : List (Piece φ κ))) : w ∈ words ++ endVocab := by
    rcases List.mem_append.1 h with h | h
    · exact List.mem_append.2 (.inl (hw w h))
    · exact List.mem_append.2 (.inr (localPort_vocab _ _ _ h))
  have hc (cs : List κ) : Piece.countries cs ∉ (pre ++ localPort a.loc a.port : List (Piece φ κ)) := by
    simp [localPort_countries, hcs]
  have left {ws : List String} (hws : (ws.any fun w => decide (w ∈ endVocab)) = false) (h : Has (pre ++ localPort a.loc a.port : List (Piece φ κ)) ws) : Has pre ws :=
    (has_append.1 h).resolve_right fun h => by rw [has_vocab (localPort_vocab _ _) h] at hws; cases hws
  have right {ws : List String} (hws : (ws.any fun w => decide (w ∈ words)) = false) (h : Has (pre ++ localPort a.loc a.port : List (Piece φ κ)) ws) :
      Has (localPort a.loc a.port : List (Piece φ κ)) ws :=
    (has_append.1 h).resolve_left fun h => by rw [has_vocab hw h] at hws; cases hws
  cases x <;> simp only [Means] at h
  rename_i y
  obtain ⟨hport, h⟩ := h
  have hloc : Spec.Ip.LocalOk a.loc (LocalValue L s (.host y)) := by
    rcases h with ⟨z, hz, -, -, h, -⟩ | ⟨z, hz, -, -, h, -⟩ | ⟨d, z, hz, -, -, -, -, h, -⟩ <;>
      (simp only [LocalValue, hz]; exact h)
  have hname : ∀ z, NameOf (.host y : Value φ κ N U V) z → Spec.Host.AsName (hostOpts a) L.idna (strBytes s) y ∧ y.host = .domain z := by
    rintro z (⟨_, h1, -⟩ | h1)
    · cases h1
    · have hz : y.host = .domain z := by simpa [hostOf] using h1
      rcases h with ⟨w, hw, -⟩ | ⟨w, hw, -⟩ | h
      · rw [hw] at hz; cases hz
      · rw [hw] at hz; cases hz
      · exact ⟨h, hz⟩
  silence vocab hc
  · intro h'
    rw [hp (right (by decide) h')] at hport; exact hport
  · intro h'
    rw [hnp (right (by decide) h')] at hport; exact hport
  · intro h'
    rw [hl (right (by decide) h')] at hloc; exact hloc
  · intro h'
    rw [hnl (right (by decide) h')] at hloc; exact hloc
  · intro h' z hz
    obtain ⟨⟨d, z', hz', -, -, -, h3, -⟩, hz⟩ := hname z hz
    rw [hz] at hz'
    cases hz'
    simp only [hostOpts, h1 (left (by decide) h')] at h3
    exact h3.symm
  · intro h'
    have hd := h2 (left (by decide) h')
    rcases h with ⟨z, -, -, h, -⟩ | ⟨z, -, -, h, -⟩ | ⟨d, z, hz, -, -, -, h3, -⟩
    · exact absurd hd h
    · exact absurd hd h
    · refine ⟨z, .inr (by simp [hostOf, hz]), ?_⟩
      simp only [hostOpts, hd] at h3
      exact h3.elim (local_one z) id
  · intro _
    rcases h with ⟨z, -, h, -⟩ | ⟨z, -, h, -⟩ | ⟨d, z, hz, -⟩
    · exact .inl ⟨.v6 z, h⟩
    · exact .inl ⟨.v4 z, h⟩
    · exact .inr ⟨z, .inr (by simp [hostOf, hz])⟩
  · intro _ z hz
    obtain ⟨⟨d, z', -, h3, h4, -⟩, -⟩ := hname z hz
    exact ⟨d, h3, h4.2.2.2.1⟩

/-- Domains. -/
theorem domain_truthful (L : Libs φ κ N U V ε) (a : DomainAttribute) (s : List Char) (x : Value φ κ N U V) (h : Means L (.domain a) s x) :
    Truthful L (domainExpect a) s x := by
  obtain ⟨hp, hnp, hl, hnl⟩ := localPort_has (φ := φ) (κ := κ) a.loc a.port
  let words := ["a correct ", "at-least-two-labels ", "one-label ", "domain name", "IPv4 string", "at-least-two-labels and ", "non-IPv4 domain name"]
  obtain ⟨pre, ht, hw, hcs, h1, h2, h3, h4⟩ : ∃ pre : List (Piece φ κ), domainExpect a = pre ++ localPort a.loc a.port ∧ (∀ w, .words w ∈ pre → w ∈ words) ∧
      (∀ cs, .countries cs ∉ pre) ∧ (Has pre twoLabels → a.atl = .must) ∧ (Has pre oneLabel → a.atl = .disallow ∧ a.ipv4 = .allow) ∧
      (Has pre ["an IPv4 string", "IPv4 string"] → a.ipv4 = .must) ∧ (Has pre ["non-IPv4 domain name"] → a.ipv4 = .disallow) := by
    unfold domainExpect
    cases a.ipv4
    · cases a.atl
      · exact ⟨[.words "a correct ", .words "domain name"], rfl, by simp [words], by simp, by simp [Has, twoLabels], by simp [Has, oneLabel], by simp [Has], by simp [Has]⟩
      · exact ⟨[.words "a correct ", .words "at-least-two-labels ", .words "domain name"], rfl, by simp [words], by simp, by simp, by simp [Has, oneLabel], by simp [Has], by simp [Has]⟩
      · exact ⟨[.words "a correct ", .words "one-label ", .words "domain name"], rfl, by simp [words], by simp, by simp [Has, twoLabels], by simp, by simp [Has], by simp [Has]⟩
    · exact ⟨[.words "a correct ", .words "IPv4 string"], rfl, by simp [words], by simp, by simp [Has, twoLabels], by simp [Has, oneLabel], by simp, by simp [Has]⟩
    · cases a.atl
      · exact ⟨[.words "a correct ", .words "non-IPv4 domain name"], rfl, by simp [words], by simp, by simp [Has, twoLabels], by simp [Has, oneLabel], by simp [Has], by simp⟩
      · exact ⟨[.words "a correct ", .words "at-least-two-labels and ", .words "non-IPv4 domain name"], rfl, by simp [words], by simp, by simp, by simp [Has, oneLabel], by simp [Has], by simp⟩
      · exact ⟨[.words "a correct ", .words "non-IPv4 domain name"], rfl, by simp [words], by simp, by simp [Has, twoLabels], by simp [Has, oneLabel], by simp [Has], by simp⟩
  rw [ht]
  have vocab (w : String) (h : .words w ∈ (pre ++ localPort a.loc a.port : List (Piece φ κ))) : w ∈ words ++ endVocab := by
    rcases List.mem_append.1 h with h | h
    · exact List.mem_append.2 (.inl (hw w h))
    · exact List.mem_append.2 (.inr (localPort_vocab _ _ _ h))
  have hc (cs : List κ) : Piece.countries cs ∉ (pre ++ localPort a.loc a.port : List (Piece φ κ)) := by
    simp [localPort_countries, hcs]
  have left {ws : List String} (hws : (ws.any fun w => decide (w ∈ endVocab)) = false) (h : Has (pre ++ localPort a.loc a.port : List (Piece φ κ)) ws) : Has pre ws :=
    (has_append.1 h).resolve_right fun h => by rw [has_vocab (localPort_vocab _ _) h] at hws; cases hws
  have right {ws : List String} (hws : (ws.any fun w => decide (w ∈ words)) = false) (h : Has (pre ++ localPort a.loc a.port : List (Piece φ κ)) ws) :
      Has (localPort a.loc a.port : List (Piece φ κ)) ws :=
    (has_append.1 h).resolve_left fun h => by rw [has_vocab hw h] at hws; cases hws
  cases x <;> simp only [Means] at h
  rename_i y
  obtain ⟨-, d, hd, hport, h⟩ := h
  have same : ∀ z, NameOf (.domain y : Value φ κ N U V) z → y.domain = z := by
    rintro z (⟨_, h1, h2⟩ | h1)
    · cases h1; exact h2
    · cases h1
  silence vocab hc
  · intro h'
    rw [hp (right (by decide) h')] at hport; exact hport
  · intro h'
    rw [hnp (right (by decide) h')] at hport; exact hport
  · intro h'
    have e := hl (right (by decide) h')
    rcases h with ⟨hs, x4, -, hq, -, -, hloc, -⟩ | ⟨-, -, -, -, hloc, -⟩
    · simp only [domainOpts, e] at hloc
      exact .inr ⟨d, x4, hd, hq, hloc⟩
    · simp only [domainOpts, e] at hloc
      exact .inl hloc
  · intro h'
    have e := hnl (right (by decide) h')
    rcases h with ⟨hs, x4, -, hq, -, -, hloc, -⟩ | ⟨hn, -, -, -, hloc, -⟩
    · simp only [domainOpts, e] at hloc
      rintro (hl | ⟨d', v4, h5, h6, h7⟩)
      · rw [hs] at hl
        exact local_one _ hl (quad_many _ d x4 _ hd hq)
      · rw [(Domain.hostPort_unique _ _ _ _ _ h5 hd).1] at h6
        have := ((Domain.quadDot_iff d v4).2 h6).symm.trans ((Domain.quadDot_iff d x4).2 hq)
        cases this
        exact hloc h7
    · simp only [domainOpts, e] at hloc
      rintro (hl | ⟨d', v4, h5, h6, h7⟩)
      · exact hloc hl
      · rw [(Domain.hostPort_unique _ _ _ _ _ h5 hd).1] at h6
        rcases hn with hn | hn
        · simp only [Spec.Domain.Plain, domainOpts, e] at hn
          exact absurd hn.2.1 (by decide)
        · exact hn v4 h6
  · intro h' z hz
    have e := h1 (left (by decide) h')
    cases same z hz
    rcases h with ⟨hs, x4, -, hq, -⟩ | ⟨-, -, -, hlab, -⟩
    · rw [hs]
      exact .inl (quad_many _ d x4 _ hd hq)
    · simp only [domainOpts, e] at hlab
      exact hlab.symm
  · intro h'
    have e := h2 (left (by decide) h')
    rcases h with ⟨hs, x4, -, hq, -, hn, -⟩ | ⟨-, -, -, hlab, -⟩
    · exact absurd e.1 hn
    · simp only [domainOpts, e.1] at hlab
      exact ⟨y.domain, .inl ⟨y, rfl, rfl⟩, hlab.elim (local_one _) id⟩
  · intro h'
    have e := h3 (left (by decide) h')
    rcases h with ⟨hs, x4, -, hq, -⟩ | ⟨-, hn, -⟩
    · exact ⟨d, x4, hd, hq⟩
    · exact absurd e hn
  · intro h'
    have e := h4 (left (by decide) h')
    rcases h with ⟨hs, x4, -, hq, hn, -⟩ | ⟨hn, -⟩
    · exact absurd e hn
    · refine ⟨d, hd, fun v4 hq => ?_⟩
      rcases hn with hn | hn
      · simp only [Spec.Domain.Plain, domainOpts, e] at hn
        exact absurd hn.1 (by decide)
      · exact hn v4 hq

/-- Emails. -/
theorem email_truthful (L : Libs φ κ N U V ε) (a : EmailAttribute) (s : List Char) (x : Value φ κ N U V) (h : Means L (.email a) s x) :
    Truthful L (emailExpect a) s x := by
  let words := ["an ASCII email", "an email", " whose domain part must be at-least-two-labels", " whose domain part must be one-label",
    " whose domain part must be an IP", " whose domain part must be non-IP", " and at-least-two-labels", " and one-label"]
  have facts : (∀ w, .words w ∈ (emailExpect a : List (Piece φ κ)) → w ∈ words) ∧ (∀ cs, .countries cs ∉ (emailExpect a : List (Piece φ κ))) ∧
      (Has (emailExpect a : List (Piece φ κ)) twoLabels → a.atl = .must) ∧ (Has (emailExpect a : List (Piece φ κ)) oneLabel → a.atl = .disallow) ∧
      (Has (emailExpect a : List (Piece φ κ)) [" whose domain part must be an IP"] → a.ip = .must) ∧
      (Has (emailExpect a : List (Piece φ κ)) [" whose domain part must be non-IP"] → a.ip = .disallow) ∧
      (Has (emailExpect a : List (Piece φ κ)) ["an ASCII email"] → a.nonAscii = .disallow) := by
    unfold emailExpect
    cases a.nonAscii <;> cases a.ip <;> cases a.atl <;> simp [words, Has, twoLabels, oneLabel]
  obtain ⟨vocab, hc, h1, h2, h3, h4, h5⟩ := facts
  cases x <;> simp only [Means] at h
  rename_i y
  obtain ⟨o1, o2, -, -, o3, o4, -, o5⟩ := Props.Email.C43_options _ _ s y ((Props.Email.C62_email _ _ s y).2 h)
  have same : ∀ z, NameOf (.email y : Value φ κ N U V) z ↔ y.host = .domain z := by
    intro z
    simp [NameOf, hostOf]
  silence vocab hc
  · intro h' z hz
    exact (o3 (h1 h') z ((same z).1 hz)).symm
  · intro h'
    obtain ⟨z, hz, h⟩ := o4 (h2 h')
    exact ⟨z, (same z).2 hz, h.elim (local_one z) id⟩
  · intro h' z hz
    exact o1 (h3 h') z ((same z).1 hz)
  · intro h'
    obtain ⟨z, hz⟩ := o2 (h4 h')
    exact ⟨z, (same z).2 hz⟩
  · intro h'
    exact ⟨y, rfl, o5 (h5 h')⟩

/-- URLs. -/
theorem url_truthful (L : Libs φ κ N U V ε) (v : Validator) (a : UrlAttribute) (t : List (Piece φ κ)) (ht : expect (.url v a) = some t) (s : List Char)
    (x : Value φ κ N U V) (h : Means L (.url v a) s x) : Truthful L t s x := by
  have facts (name : String) : (∀ w, .words w ∈ (urlExpect name a.loc : List (Piece φ κ)) → w ∈ ["a " ++ name ++ " url", " which must be local", " which must not be local"]) ∧
      (∀ cs, .countries cs ∉ (urlExpect name a.loc : List (Piece φ κ))) ∧
      (∀ ws, "a " ++ name ++ " url" ∉ ws → Has (urlExpect name a.loc : List (Piece φ κ)) ws →
        a.loc = .must ∧ " which must be local" ∈ ws ∨ a.loc = .disallow ∧ " which must not be local" ∈ ws) := by
    unfold urlExpect
    cases a.loc <;> simp [Has] <;> grind
  simp only [expect] at ht
  split at ht
  · obtain ⟨vocab, hc, hl⟩ := facts "http/https"
    cases ht
    cases x <;> simp [Means] at h
    rename_i u b
    obtain ⟨h1, h2, h3⟩ := h
    silence vocab hc
    · intro h'
      rcases hl _ (by decide) h' with ⟨e, -⟩ | ⟨-, e⟩
      · rw [e] at h3; exact h3
      · exact absurd e (by decide)
    · intro h'
      rcases hl _ (by decide) h' with ⟨-, e⟩ | ⟨e, -⟩
      · exact absurd e (by decide)
      · rw [e] at h3; exact h3
    · intro _
      cases b with
      | true => exact ⟨"https", by decide, h1⟩
      | false => exact ⟨"http", by decide, h1⟩
  · obtain ⟨vocab, hc, hl⟩ := facts "http/https/ftp"
    cases ht
    cases x <;> simp [Means] at h
    rename_i u b
    obtain ⟨h1, h2, h3⟩ := h
    silence vocab hc
    · intro h'
      rcases hl _ (by decide) h' with ⟨e, -⟩ | ⟨-, e⟩
      · rw [e] at h3; exact h3
      · exact absurd e (by decide)
    · intro h'
      rcases hl _ (by decide) h' with ⟨-, e⟩ | ⟨e, -⟩
      · exact absurd e (by decide)
      · rw [e] at h3; exact h3
    · intro _
      cases b with
      | http => exact ⟨"http", by decide, h1⟩
      | https => exact ⟨"https", by decide, h1⟩
      | ftp => exact ⟨"ftp", by decide, h1⟩
  · cases ht

omit [LinearOrder φ] in
/-- The vocabulary of a text of one phrase. -/
theorem single_vocab (t : List (Piece φ κ)) (w : String) (h : t = [.words w]) : ∀ v, .words v ∈ t → v ∈ [w] := by
  subst h
  simp

local macro "encoding " vocab:ident hf:ident : tactic => `(tactic| (
  intro m hm hh
  have := has_vocab $vocab hh
  simp only [notations, List.mem_cons, List.not_mem_nil, or_false] at hm
  rcases hm with hm | hm | hm <;> subst hm <;> first | exact absurd this (by decide) | exact ($hf).1 | exact ($hf).2.1 rfl | exact ($hf).2.2 rfl))

/-- Encodings. -/
theorem base_truthful (L : Libs φ κ N U V ε) (v : Validator) (a : BaseAttribute) (t : List (Piece φ κ)) (ht : expect (.base v a) = some t) (s : List Char)
    (x : Value φ κ N U V) (h : Means L (.base v a) s x) : Truthful L t s x := by
  obtain ⟨n, hn, h1, h2⟩ : ∃ n ∈ notations, t = baseExpect n.1 a.padding ∧ (Spec.BaseN.Accepts n.2 a.padding (strBytes s) ∨ ∃ d, Spec.BaseN.Decodes n.2 a.padding (strBytes s) d) := by
    have hm : Spec.BaseN.Accepts (notationOf v) a.padding (strBytes s) ∨ ∃ d, Spec.BaseN.Decodes (notationOf v) a.padding (strBytes s) d := by
      cases x <;> simp only [Means] at h
      · exact .inl h.2.2
      · exact .inr ⟨_, h.2⟩
    simp only [expect] at ht
    split at ht <;> cases ht
    · exact ⟨("Base32", _), .head _, rfl, hm⟩
    · exact ⟨("Base32", _), .head _, rfl, hm⟩
    · exact ⟨("Base64", _), .tail _ (.head _), rfl, hm⟩
    · exact ⟨("Base64", _), .tail _ (.head _), rfl, hm⟩
    · exact ⟨("Base64-url", _), .tail _ (.tail _ (.head _)), rfl, hm⟩
    · exact ⟨("Base64-url", _), .tail _ (.tail _ (.head _)), rfl, hm⟩
  have hf : (∀ b ∈ strBytes s, b ∈ n.2.alphabet ∨ b = asc '=') ∧ (a.padding = .must → (strBytes s).length % n.2.block = 0) ∧ (a.padding = .disallow → asc '=' ∉ strBytes s) := by
    simp only [notations, List.mem_cons, List.not_mem_nil, or_false] at hn
    rcases hn with rfl | rfl | rfl
    · exact base_facts _ BaseN.tails32 (by decide) (by decide) _ _ h2
    · exact base_facts _ BaseN.tails64 (by decide) (by decide) _ _ h2
    · exact base_facts _ BaseN.tails64Url (by decide) (by decide) _ _ h2
  clear h h2 ht
  subst h1
  have hc (cs : List κ) : .countries cs ∉ (baseExpect n.1 a.padding : List (Piece φ κ)) := by
    unfold baseExpect
    cases a.padding <;> simp
  simp only [notations, List.mem_cons, List.not_mem_nil, or_false] at hn
  cases hp : a.padding <;> rw [hp] at hf hc
  · rcases hn with rfl | rfl | rfl
    · have vocab : ∀ w, .words w ∈ (baseExpect "Base32" .allow : List (Piece φ κ)) → w ∈ ["a " ++ "Base32" ++ " string or data"] := single_vocab _ _ rfl
      silence vocab hc <;> encoding vocab hf
    · have vocab : ∀ w, .words w ∈ (baseExpect "Base64" .allow : List (Piece φ κ)) → w ∈ ["a " ++ "Base64" ++ " string or data"] := single_vocab _ _ rfl
      silence vocab hc <;> encoding vocab hf
    · have vocab : ∀ w, .words w ∈ (baseExpect "Base64-url" .allow : List (Piece φ κ)) → w ∈ ["a " ++ "Base64-url" ++ " string or data"] := single_vocab _ _ rfl
      silence vocab hc <;> encoding vocab hf
  · rcases hn with rfl | rfl | rfl
    · have vocab : ∀ w, .words w ∈ (baseExpect "Base32" .must : List (Piece φ κ)) → w ∈ ["a " ++ "Base32" ++ " string or data with padding"] := single_vocab _ _ rfl
      silence vocab hc <;> encoding vocab hf
    · have vocab : ∀ w, .words w ∈ (baseExpect "Base64" .must : List (Piece φ κ)) → w ∈ ["a " ++ "Base64" ++ " string or data with padding"] := single_vocab _ _ rfl
      silence vocab hc <;> encoding vocab hf
    · have vocab : ∀ w, .words w ∈ (baseExpect "Base64-url" .must : List (Piece φ κ)) → w ∈ ["a " ++ "Base64-url" ++ " string or data with padding"] := single_vocab _ _ rfl
      silence vocab hc <;> encoding vocab hf
  · rcases hn with rfl | rfl | rfl
    · have vocab : ∀ w, .words w ∈ (baseExpect "Base32" .disallow : List (Piece φ κ)) → w ∈ ["a " ++ "Base32" ++ " string or data without padding"] := single_vocab _ _ rfl
      silence vocab hc <;> encoding vocab hf
    · have vocab : ∀ w, .words w ∈ (baseExpect "Base64" .disallow : List (Piece φ κ)) → w ∈ ["a " ++ "Base64" ++ " string or data without padding"] := single_vocab _ _ rfl
      silence vocab hc <;> encoding vocab hf
    · have vocab : ∀ w, .words w ∈ (baseExpect "Base64-url" .disallow : List (Piece φ κ)) → w ∈ ["a " ++ "Base64-url" ++ " string or data without padding"] := single_vocab _ _ rfl
      silence vocab hc <;> encoding vocab hf

/-! ## Digits -/

omit [LinearOrder φ] in
theorem hex_facts (name : String) (a : HexAttribute) :
    (∀ w, .words w ∈ (hexExpect name a : List (Piece φ κ)) → w ∈ ["a valid ", "upper-case ", "lower-case ", name ++ " string", " with separators ",
      " with optional separators ", " without separators"]) ∧
    (∀ cs, .countries cs ∉ (hexExpect name a : List (Piece φ κ))) := by
  unfold hexExpect
  cases a.case <;> cases a.separator <;> simp

omit [LinearOrder φ] in
theorem hex_case (name : String) (hn : name ++ " string" ∉ ["upper-case ", "lower-case "]) (a : HexAttribute) :
    (Has (hexExpect name a : List (Piece φ κ)) ["upper-case "] → a.case = .upper) ∧ (Has (hexExpect name a : List (Piece φ κ)) ["lower-case "] → a.case = .lower) := by
  unfold hexExpect
  cases a.case <;> cases a.separator <;> simp [Has] <;> grind

omit [LinearOrder φ] in
theorem hex_separator (name : String) (hn : name ++ " string" ∉ [" with separators ", " with optional separators ", " without separators"])
    (a : HexAttribute) (sep : SeparatorOption) (h : separatorText sep <:+: (hexExpect name a : List (Piece φ κ))) : a.separator = sep := by
  have hs := h.subset
  cases sep <;> simp only [separatorText, List.cons_subset, List.nil_subset, and_true] at hs <;> revert hs <;> unfold hexExpect <;>
    cases a.case <;> cases a.separator <;> simp <;> grind

theorem hex_any (c : CaseOption) : ∀ b ∈ Spec.Hex.symbols c, b ∈ Spec.Hex.symbols .any := by
  cases c <;> decide

/-- MAC addresses and UUIDs. -/
theorem hex_truthful (L : Libs φ κ N U V ε) (v : Validator) (a : HexAttribute) (t : List (Piece φ κ)) (ht : expect (.hex v a) = some t) (s : List Char)
    (x : Value φ κ N U V) (h : Means L (.hex v a) s x) : Truthful L t s x := by
  cases x <;> simp only [Means] at h
  obtain ⟨ds, h1, h2, -⟩ := h
  have h1 := Hex.cut_grouped _ _ _ _ h1
  have low (hc : a.case = .lower) : ∀ b ∈ ds, b ∈ Spec.Hex.symbols .lower := by rw [hc] at h2; exact h2
  have up (hc : a.case = .upper) : ∀ b ∈ ds, b ∈ Spec.Hex.symbols .upper := by rw [hc] at h2; exact h2
  simp only [expect] at ht
  split at ht <;> cases ht
  · obtain ⟨vocab, hc⟩ := hex_facts (φ := φ) (κ := κ) "MacAddress" a
    obtain ⟨hu, hl⟩ := hex_case (φ := φ) (κ := κ) "MacAddress" (by decide) a
    have hs := hex_separator (φ := φ) (κ := κ) "MacAddress" (by decide) a
    silence vocab hc
    intro g hg sep hh hi
    rw [if_neg (by decide)] at h1
    have := has_vocab vocab hh
    simp only [groups, List.mem_cons, List.not_mem_nil, or_false] at hg
    rcases hg with rfl | rfl
    · exact ⟨ds, hs sep hi ▸ h1, fun b hb => hex_any _ b (h2 b hb), fun h => up (hu h), fun h => low (hl h)⟩
    · exact absurd this (by decide)
  · obtain ⟨vocab, hc⟩ := hex_facts (φ := φ) (κ := κ) "UUID" a
    obtain ⟨hu, hl⟩ := hex_case (φ := φ) (κ := κ) "UUID" (by decide) a
    have hs := hex_separator (φ := φ) (κ := κ) "UUID" (by decide) a
    silence vocab hc
    intro g hg sep hh hi
    rw [if_pos rfl] at h1
    have := has_vocab vocab hh
    simp only [groups, List.mem_cons, List.not_mem_nil, or_false] at hg
    rcases hg with rfl | rfl
    · exact absurd this (by decide)
    · exact ⟨ds, hs sep hi ▸ h1, fun b hb => hex_any _ b (h2 b hb), fun h => up (hu h), fun h => low (hl h)⟩

/-! ## Numbers -/

/-- Numbers are printed as such, and different numbers differently. -/
structure Prints {α : Type} (num : α → Piece φ κ) : Prop where
  inj : ∀ x y, num x = num y → x = y
  notWords : ∀ x w, num x ≠ .words w
  notCountries : ∀ x cs, num x ≠ .countries cs

omit [LinearOrder φ] in
theorem prints_int : Prints (φ := φ) (κ := κ) .int := ⟨by simp, by simp, by simp⟩
omit [LinearOrder φ] in
theorem prints_float : Prints (φ := φ) (κ := κ) .float := ⟨by simp, by simp, by simp⟩

omit [LinearOrder φ] in
theorem bounds_text {α : Type} (num : α → Piece φ κ) (b : Bounds α) : boundsExpect num b = boundsText num b := by
  obtain ⟨min, max, inc⟩ := b
  cases min <;> cases max <;> cases inc <;> rfl

omit [LinearOrder φ] in
theorem range_text {α : Type} (num : α → Piece φ κ) (r : RangeOption α) : rangeExpect num r = rangeText num r := by
  cases r <;> simp [rangeExpect, rangeText, bounds_text]

omit [LinearOrder φ] in
/-- The text of bounds determines what they contain. -/
theorem bounds_same {α : Type} {num : α → Piece φ κ} (P : Prints num) (b c : Bounds α) (h : boundsText num b = boundsText num c) :
    b.min = c.min ∧ b.max = c.max ∧ (b.max ≠ none → b.inclusive = c.inclusive) := by
  have h1 := P.inj
  have h2 := P.notWords
  have h3 : ∀ x w, .words w ≠ num x := fun x w e => P.notWords x w e.symm
  obtain ⟨min, max, inc⟩ := b
  obtain ⟨min', max', inc'⟩ := c
  cases min <;> cases max <;> cases inc <;> cases min' <;> cases max' <;> cases inc' <;>
    simp [boundsText, h2, h3] at h ⊢ <;> first | exact h1 _ _ h | exact ⟨h1 _ _ h.1, h1 _ _ h.2⟩

omit [LinearOrder φ] in
theorem range_same {α : Type} [LinearOrder α] {num : α → Piece φ κ} (P : Prints num) (r q : RangeOption α) (h : rangeText num r = rangeText num q) (x : α) :
    Spec.Range.Satisfies r x ↔ Spec.Range.Satisfies q x := by
  have same (b c : Bounds α) (h : boundsText num b = boundsText num c) :
      (Spec.Range.Contains b x ↔ Spec.Range.Contains c x) ∧ (Spec.Range.Bounded b ↔ Spec.Range.Bounded c) := by
    obtain ⟨h1, h2, h3⟩ := bounds_same P b c h
    unfold Spec.Range.Contains Spec.Range.Bounded
    rw [← h1, ← h2]
    refine ⟨and_congr_right fun _ => forall_congr' fun m => ?_, .rfl⟩
    refine imp_congr_right fun hm => ?_
    rw [h3 (by simp [hm])]
  cases r <;> cases q <;> simp [rangeText] at h <;> simp only [Spec.Range.Satisfies]
  · exact (same _ _ h).1
  · rw [(same _ _ h).1, (same _ _ h).2]

omit [LinearOrder φ] in
theorem bounds_vocab {α : Type} {num : α → Piece φ κ} (P : Prints num) (b : Bounds α) :
    (∀ w, .words w ∈ boundsText num b → w ∈ ["..", "="]) ∧ ∀ cs, .countries cs ∉ boundsText num b := by
  have h2 : ∀ x w, .words w ≠ num x := fun x w e => P.notWords x w e.symm
  have h3 : ∀ x w, .countries w ≠ num x := fun x w e => P.notCountries x w e.symm
  obtain ⟨min, max, inc⟩ := b
  cases min <;> cases max <;> cases inc <;> simp [boundsText, h2, h3]

omit [LinearOrder φ] in
theorem range_vocab {α : Type} {num : α → Piece φ κ} (P : Prints num) (r : RangeOption α) :
    (∀ w, .words w ∈ rangeText num r → w ∈ [" in ", " not in ", "..", "="]) ∧ ∀ cs, .countries cs ∉ rangeText num r := by
  have := fun b => bounds_vocab P b
  cases r with
  | unlimited => simp [rangeText]
  | inside b | outside b =>
    obtain ⟨h1, h2⟩ := this b
    simp only [rangeText, List.mem_cons, Piece.words.injEq]
    refine ⟨fun w h => ?_, fun cs h => ?_⟩
    · have := h1 w
      grind
    · simp [h2] at h

/-- Integers. -/
theorem int_truthful (L : Libs φ κ N U V ε) (signed : Bool) (w : IntV.Width) (a : RangeAttribute Int) (s : List Char)
    (x : Value φ κ N U V) (h : Means L (.int signed w a) s x) :
    Truthful L (.words (if signed then "a signed integer" else "a unsigned integer") :: rangeExpect .int a.range) s x := by
  cases x <;> simp only [Means] at h
  rename_i i
  rw [range_text]
  obtain ⟨h1, h2⟩ := range_vocab (φ := φ) (κ := κ) prints_int a.range
  cases signed with
  | true =>
    have vocab : ∀ w, .words w ∈ (.words "a signed integer" :: rangeText .int a.range : List (Piece φ κ)) →
        w ∈ ["a signed integer", " in ", " not in ", "..", "="] := by
      intro w hw
      rcases List.mem_cons.1 hw with hw | hw
      · simp [Piece.words.inj hw]
      · exact List.mem_cons_of_mem _ (h1 w hw)
    have hc : ∀ cs, .countries cs ∉ (.words "a signed integer" :: rangeText .int a.range : List (Piece φ κ)) := by simp [h2]
    simp only [if_true]
    silence vocab hc
    intro r hr
    exact ⟨i, rfl, h.1, (range_same prints_int _ _ (List.cons.inj hr).2 i).1 h.2.2⟩
  | false =>
    have vocab : ∀ w, .words w ∈ (.words "a unsigned integer" :: rangeText .int a.range : List (Piece φ κ)) →
        w ∈ ["a unsigned integer", " in ", " not in ", "..", "="] := by
      intro w hw
      rcases List.mem_cons.1 hw with hw | hw
      · simp [Piece.words.inj hw]
      · exact List.mem_cons_of_mem _ (h1 w hw)
    have hc : ∀ cs, .countries cs ∉ (.words "a unsigned integer" :: rangeText .int a.range : List (Piece φ κ)) := by simp [h2]
    simp only [Bool.false_eq_true, if_false]
    silence vocab hc
    intro r hr
    exact ⟨i, rfl, h.1, (range_same prints_int _ _ (List.cons.inj hr).2 i).1 h.2.2⟩

omit [LinearOrder φ] in
/-- The text determines the range and the option for NaN. -/
theorem number_same {α : Type} {num : α → Piece φ κ} (P : Prints num) (r q : RangeOption α) (n m : TriAllow)
    (h : rangeText num r ++ nanText n = rangeText num q ++ nanText m) : n = m ∧ rangeText num r = rangeText num q := by
  have hr (r : RangeOption α) (n : TriAllow) (w : String) (hw : w ∉ [" in ", " not in ", "..", "="]) :
      .words w ∈ rangeText num r ++ nanText n ↔ .words w ∈ (nanText n : List (Piece φ κ)) := by
    rw [List.mem_append]
    exact ⟨fun h => h.elim (fun h => absurd ((range_vocab P r).1 w h) hw) id, .inr⟩
  have e : n = m := by
    have h1 := hr r n " which must be NaN" (by decide)
    have h2 := hr r n " which must not be NaN" (by decide)
    rw [h, hr _ _ _ (by decide)] at h1 h2
    revert h1 h2
    cases n <;> cases m <;> simp [nanText]
  subst e
  exact ⟨rfl, List.append_cancel_right h⟩

omit [LinearOrder φ] in
theorem number_text (a : NumberAttribute φ) : (numberExpect a : List (Piece φ κ)) = .words "a number" :: rangeText .float a.range ++ nanText a.nan := by
  unfold numberExpect
  rw [range_text]
  cases a.nan <;> rfl

/-- Numbers. -/
theorem number_truthful (L : Libs φ κ N U V ε) (double : Bool) (a : NumberAttribute φ) (s : List Char)
    (x : Value φ κ N U V) (h : Means L (.number double a) s x) : Truthful L (numberExpect a) s x := by
  cases x <;> simp only [Means] at h
  rename_i f
  obtain ⟨h1, h2⟩ := range_vocab (φ := φ) (κ := κ) prints_float a.range
  rw [number_text]
  have vocab : ∀ w, .words w ∈ (.words "a number" :: rangeText .float a.range ++ nanText a.nan : List (Piece φ κ)) →
      w ∈ ["a number", " which must be NaN", " which must not be NaN", " in ", " not in ", "..", "="] := by
    intro w hw
    have := h1 w
    revert hw
    cases a.nan <;> simp [nanText] <;> grind
  have hc : ∀ cs, .countries cs ∉ (.words "a number" :: rangeText .float a.range ++ nanText a.nan : List (Piece φ κ)) := by
    cases a.nan <;> simp [h2, nanText]
  silence vocab hc
  intro r nan hr
  obtain ⟨rfl, e⟩ := number_same prints_float _ _ _ _ (List.cons.inj hr).2
  refine ⟨f, rfl, fun y hy => ?_, fun hn => ?_⟩
  · subst hy
    exact ⟨(range_same prints_float _ _ e y).1 h.2.1, h.2.2⟩
  · subst hn
    exact h.2

/-! ## Lines and texts -/

omit [LinearOrder φ] in
theorem length_same (l : Option (Bool × Length)) (min trimmedMin max : Option Nat)
    (h : (utf8Expect l : List (Piece φ κ)) = .words "a line" :: lengthText min trimmedMin max) :
    ∃ isByte, l = some (isByte, ⟨min, trimmedMin, max⟩) := by
  cases l with
  | none => simp [utf8Expect, lengthText] at h
  | some l =>
    obtain ⟨isByte, a, b, c⟩ := l
    refine ⟨isByte, ?_⟩
    cases a <;> cases b <;> cases c <;> cases min <;> cases trimmedMin <;> cases max <;> simp [utf8Expect, lengthText] at h ⊢ <;> omega

theorem utf8_truthful (L : Libs φ κ N U V ε) (v : Validator) (a : Utf8Attribute) (t : List (Piece φ κ)) (ht : expect (.utf8 v a) = some t)
    (s : List Char) (x : Value φ κ N U V) (h : Means L (.utf8 v a) s x) : Truthful L t s x := by
  have e : t = utf8Expect a.length := by
    simp only [expect] at ht
    split at ht <;> cases ht <;> rfl
  subst e
  cases x <;> simp only [Means] at h
  have facts : (∀ w, .words w ∈ (utf8Expect a.length : List (Piece φ κ)) → w ∈ ["a line", " in ", "(", ")", "..", "="]) ∧
      ∀ cs, .countries cs ∉ (utf8Expect a.length : List (Piece φ κ)) := by
    cases a.length with
    | none => simp [utf8Expect]
    | some l =>
      obtain ⟨isByte, a, b, c⟩ := l
      cases a <;> cases b <;> cases c <;> simp [utf8Expect]
  obtain ⟨vocab, hc⟩ := facts
  silence vocab hc
  intro min tm max hl
  obtain ⟨isByte, e⟩ := length_same _ _ _ _ hl
  rw [e] at h
  exact ⟨isByte, h.2.1, h.2.2.1⟩

/-! ## Phone numbers -/

theorem phone_truthful (L : Libs φ κ N U V ε) (a : PhoneAttribute κ) (s : List Char) (x : Value φ κ N U V) (h : Means L (.phone a) s x) :
    Truthful L (phoneExpect a.countries) s x := by
  cases x <;> simp only [Means] at h
  rename_i y
  rcases ha : a.countries with _ | ⟨c, cs⟩
  · rw [ha] at h
    have vocab : ∀ w, .words w ∈ (phoneExpect [] : List (Piece φ κ)) → w ∈ ["an international phone number"] := by simp [phoneExpect]
    have hc : ∀ cs, .countries cs ∉ (phoneExpect [] : List (Piece φ κ)) := by simp [phoneExpect]
    silence vocab hc
    intro _
    cases y <;> simp only [PhoneOk] at h
    exact ⟨_, h⟩
  · rw [ha] at h
    have vocab : ∀ w, .words w ∈ (phoneExpect (c :: cs) : List (Piece φ κ)) → w ∈ ["a phone number in "] := by simp [phoneExpect]
    have hc : ∀ ds, .countries ds ∈ (phoneExpect (c :: cs) : List (Piece φ κ)) → ds = c :: cs := by simp [phoneExpect]
    have key : ∃ d ∈ c :: cs, ∃ n, Spec.Phone.NumberOf L.phone d (strBytes s) n := by
      rcases cs with _ | ⟨d, cs⟩
      · cases y <;> simp only [PhoneOk] at h
        exact ⟨c, by simp, _, h⟩
      · cases y <;> simp only [PhoneOk] at h
        rename_i m
        obtain ⟨-, hm, h, -⟩ := h
        obtain ⟨⟨e, n⟩, hen⟩ := List.exists_mem_of_ne_nil m hm
        exact ⟨e, ((h e n).1 hen).1, n, ((h e n).1 hen).2⟩
    silence vocab (fun _ => id)
    intro ds hd
    rw [hc ds hd]
    exact key

/-! ## The rest -/

/-- A text of one phrase about which nothing is claimed. -/
theorem plain_truthful (L : Libs φ κ N U V ε) (w : String) (h : w ∈ [
    "a boolean, a boolean string like \"true\", \"false\", \"0\", \"1\", \"on\", \"off\", \"yes\", \"no\", or a number `0` or `1`",
    "a string such as \"123\", \"123Kib\", \"50.84 Mb\", or a positive integer", "a string matched by a regular expression"])
    (s : List Char) (x : Value φ κ N U V) : Truthful L [.words w] s x := by
  have vocab := single_vocab (φ := φ) (κ := κ) [.words w] w rfl
  have hc : ∀ cs, .countries cs ∉ ([.words w] : List (Piece φ κ)) := by simp
  simp only [List.mem_cons, List.not_mem_nil, or_false] at h
  rcases h with rfl | rfl | rfl
  · silence vocab hc
  · silence vocab hc
  · silence vocab hc

/-- What the text says is true of what the options allow. -/
theorem expect_truthful (L : Libs φ κ N U V ε) (p : Plan φ κ) (t : List (Piece φ κ)) (ht : expect p = some t) (s : List Char) (x : Value φ κ N U V)
    (h : Means L p s x) : Truthful L t s x := by
  cases p with
  | base v a => exact base_truthful L v a t ht s x h
  | basic v a =>
    simp only [expect] at ht
    split at ht <;> cases ht
    exact plain_truthful L _ (by simp) s x
  | bit a => cases ht
  | byte a => cases ht; exact plain_truthful L _ (by simp) s x
  | domain a => cases ht; exact domain_truthful L a s x h
  | email a => cases ht; exact email_truthful L a s x h
  | host a => cases ht; exact host_truthful L a s x h
  | url v a => exact url_truthful L v a t ht s x h
  | ip v a => exact ip_truthful L v a t ht s x h
  | length a => cases ht
  | utf8 v a => exact utf8_truthful L v a t ht s x h
  | hex v a => exact hex_truthful L v a t ht s x h
  | number d a => cases ht; exact number_truthful L d a s x h
  | phone a => cases ht; exact phone_truthful L a s x h
  | regex a => cases ht; exact plain_truthful L _ (by simp) s x
  | int b w a => cases ht; exact int_truthful L b w a s x h

/-! ## The text determines the options -/

omit [LinearOrder φ] in
theorem localPort_inj (l p l' p' : TriAllow) (h : (localPort l p : List (Piece φ κ)) = localPort l' p') : l = l' ∧ p = p' := by
  revert h
  cases l <;> cases p <;> cases l' <;> cases p' <;> simp [localPort]

omit [LinearOrder φ] in
theorem baseExpect_inj (n : String) (p q : TriAllow) (h : (baseExpect n p : List (Piece φ κ)) = baseExpect n q) : p = q := by
  revert h
  cases p <;> cases q <;> simp [baseExpect, String.append_assoc]

omit [LinearOrder φ] in
theorem domainExpect_inj (a b : DomainAttribute) (h : (domainExpect a : List (Piece φ κ)) = domainExpect b) :
    a.ipv4 = b.ipv4 ∧ (a.loc = b.loc ∧ a.port = b.port) ∧ (a.ipv4 ≠ .must → (a.atl = .disallow ↔ b.atl = .disallow) → a.atl = b.atl) := by
  unfold domainExpect at h
  cases h1 : a.ipv4 <;> cases h2 : a.atl <;> cases h3 : b.ipv4 <;> cases h4 : b.atl <;> rw [h1, h2, h3, h4] at h <;> simp at h <;>
    exact ⟨rfl, localPort_inj _ _ _ _ h, by simp⟩

omit [LinearOrder φ] in
theorem hostExpect_inj (a b : HostAttribute) (h : (hostExpect a : List (Piece φ κ)) = hostExpect b) :
    (a.loc = b.loc ∧ a.port = b.port) ∧ a.atl = b.atl := by
  unfold hostExpect at h
  cases h2 : a.atl <;> cases h4 : b.atl <;> rw [h2, h4] at h <;> simp at h <;> exact ⟨localPort_inj _ _ _ _ h, rfl⟩

omit [LinearOrder φ] in
theorem emailExpect_inj (a b : EmailAttribute) (h : (emailExpect a : List (Piece φ κ)) = emailExpect b) :
    a.ip = b.ip ∧ a.nonAscii = b.nonAscii ∧ (a.ip ≠ .must → a.atl = b.atl) := by
  unfold emailExpect at h
  cases h1 : a.ip <;> cases h2 : a.atl <;> cases h3 : b.ip <;> cases h4 : b.atl <;> cases h5 : a.nonAscii <;> cases h6 : b.nonAscii <;>
    rw [h1, h2, h3, h4, h5, h6] at h <;> simp at h ⊢

omit [LinearOrder φ] in
theorem urlExpect_inj (n : String) (p q : TriAllow) (h : (urlExpect n p : List (Piece φ κ)) = urlExpect n q) : p = q := by
  revert h
  cases p <;> cases q <;> simp [urlExpect]

omit [LinearOrder φ] in
theorem hexExpect_inj (n : String) (hn : n ++ " string" ∉ ["upper-case ", "lower-case "]) (a b : HexAttribute)
    (h : (hexExpect n a : List (Piece φ κ)) = hexExpect n b) : a.case = b.case ∧ a.separator = b.separator := by
  unfold hexExpect at h
  simp only [List.mem_cons, List.not_mem_nil, or_false, not_or] at hn
  have h1 := hn.1
  have h2 := hn.2
  have h3 : "upper-case " ≠ n ++ " string" := Ne.symm h1
  have h4 : "lower-case " ≠ n ++ " string" := Ne.symm h2
  cases hc : a.case <;> cases hs : a.separator <;> cases hc' : b.case <;> cases hs' : b.separator <;> rw [hc, hs, hc', hs'] at h <;>
    simp [h1, h2, h3, h4] at h ⊢ <;> exact h

omit [LinearOrder φ] in
theorem phoneExpect_inj (cs ds : List κ) (h : (phoneExpect cs : List (Piece φ κ)) = phoneExpect ds) : cs = ds := by
  cases cs <;> cases ds <;> simp [phoneExpect] at h ⊢
  exact h

/-- The lengths, when the text announces none. -/
def NoLength (l : Option (Bool × Length)) : Prop := l = none ∨ ∃ i, l = some (i, ⟨none, none, none⟩)

omit [LinearOrder φ] in
theorem utf8Expect_inj (l m : Option (Bool × Length)) (h : (utf8Expect l : List (Piece φ κ)) = utf8Expect m) :
    NoLength l ∧ NoLength m ∨ ∃ i j x, l = some (i, x) ∧ m = some (j, x) := by
  have hp : ∀ m : Option (Bool × Length), NoLength m ∨ ∃ j a b c, m = some (j, ⟨a, b, c⟩) ∧ (utf8Expect m : List (Piece φ κ)) = .words "a line" :: lengthText a b c := by
    intro m
    rcases m with _ | ⟨j, a, b, c⟩
    · exact .inl (.inl rfl)
    · by_cases hn : a = none ∧ b = none ∧ c = none
      · obtain ⟨rfl, rfl, rfl⟩ := hn
        exact .inl (.inr ⟨j, rfl⟩)
      · refine .inr ⟨j, a, b, c, rfl, ?_⟩
        cases a <;> cases b <;> cases c <;> simp [utf8Expect, lengthText] at hn ⊢
  have none_text : ∀ m : Option (Bool × Length), NoLength m → (utf8Expect m : List (Piece φ κ)) = [.words "a line"] := by
    rintro _ (rfl | ⟨i, rfl⟩) <;> simp [utf8Expect]
  rcases hp m with hm | ⟨j, a, b, c, rfl, e⟩
  · rcases hp l with hl | ⟨j, a, b, c, rfl, e⟩
    · exact .inl ⟨hl, hm⟩
    · rw [e, none_text m hm] at h
      simp [lengthText] at h
  · rw [e] at h
    obtain ⟨i, hi⟩ := length_same _ _ _ _ h
    exact .inr ⟨i, j, _, hi, rfl⟩

theorem noLength_ok (k : Line.Kind) (l : Option (Bool × Length)) (h : NoLength l) (s : List Char) : LengthOk k l s ↔ Spec.Line.Clean k s := by
  rcases h with rfl | ⟨i, rfl⟩
  · rfl
  · simp [LengthOk, Spec.Line.SizeOk, Spec.Line.TrimmedOk]

/-! ## The text determines what is accepted -/

/-- A field that tells, for other options. -/
theorem tells_exists (shown p : Prop) : ∃ f, Spec.Domain.Tells shown f p := by
  by_cases h : shown
  · by_cases hp : p
    · exact ⟨some true, fun _ => ⟨true, rfl, by simp [hp]⟩, fun hn => absurd h hn⟩
    · exact ⟨some false, fun _ => ⟨false, rfl, by simp [hp]⟩, fun hn => absurd h hn⟩
  · exact ⟨none, fun hs => absurd hs h, fun _ => rfl⟩

theorem domain_half (L : Libs φ κ N U V ε) (a b : DomainAttribute) (h1 : a.ipv4 = b.ipv4) (h2 : a.loc = b.loc) (h3 : a.port = b.port)
    (h4 : a.ipv4 = .must) (h5 : a.atl = .disallow ↔ b.atl = .disallow) (s : List Char) (y : Domain.Value) (h : Means L (.domain a) s (.domain y)) :
    ∃ x, Means L (.domain b) s x := by
  obtain ⟨hs, d, hd, hp, h⟩ := h
  rcases h with ⟨hy, x4, -, hq, -, hat, hloc, -⟩ | ⟨-, hm, -⟩
  · obtain ⟨f, hf⟩ := tells_exists (b.ipv4 = .allow ∧ b.loc = .allow ∧ b.atl ≠ .allow) True
    obtain ⟨g, hg⟩ := tells_exists (b.loc = .allow ∧ b.atl ≠ .allow) (Spec.Ip.Local4 x4.number)
    refine ⟨.domain { y with isIpv4 := f, isLocal := g }, hs, d, hd, h3 ▸ hp, .inl ⟨hy, x4, ?_, hq, ?_, ?_, ?_, hf, hg⟩⟩
    · rintro ⟨hb, -⟩
      simp only [domainOpts] at hb
      rw [← h1, h4] at hb
      cases hb
    · simp only [domainOpts]
      rw [← h1, h4]
      decide
    · exact fun hb => hat (h5.2 hb)
    · simp only [domainOpts] at hloc ⊢
      rw [← h2]
      exact hloc
  · exact absurd h4 hm

theorem email_half (L : Libs φ κ N U V ε) (a b : EmailAttribute) (h1 : a.ip = b.ip) (h2 : a.nonAscii = b.nonAscii) (h3 : a.comment = b.comment)
    (h4 : a.loc = b.loc) (h5 : a.ip = .must) (h6 : a.atl = .disallow ↔ b.atl = .disallow) (s : List Char) (y : Email.Value)
    (h : Means L (.email a) s (.email y)) : ∃ x, Means L (.email b) s x := by
  obtain ⟨q, t, hh, tail, h⟩ := h
  obtain ⟨f, hf⟩ := tells_exists (b.loc = .allow ∧ b.atl ≠ .allow) (Spec.Host.LocalHost y.host)
  have hd := h.domainText
  have ho := hd.ok
  simp only [emailOpts] at *
  have hl := h.localText
  have hc := h.comment2
  have hq := h.needQuoted
  refine ⟨.email { y with isLocal := f }, q, t, hh, tail, ?_⟩
  have e : emailOpts L.checked b = { emailOpts L.checked a with atl := b.atl } := by
    simp only [emailOpts, h1, h2, h3, h4]
  have ok : Spec.Email.HostOk (emailOpts L.checked b) y.host := by
    cases hy : y.host with
    | domain z =>
      rw [hy] at ho
      exact absurd h5 ho.1
    | ipv4 z | ipv6 z =>
      rw [hy] at ho
      obtain ⟨k1, k2, k3⟩ := ho
      exact ⟨by rw [e]; exact k1, fun hb => k2 (h6.2 hb), by rw [e]; exact k3⟩
  rw [e] at ok ⊢
  exact { text := h.text, short := h.short, needQuoted := hq, isLocal := by show Spec.Domain.Tells (a.loc = .allow ∧ b.atl ≠ .allow) f _; rw [h4]; exact hf,
          localText := ⟨hl.1, hl.2, hl.3, hl.4, hl.5⟩,
          comment2 := hc,
          domainText := { hd with ok := ok } }

/-- The same text for the same kind of validator, and the same for what texts leave out: the same strings are accepted. -/
theorem same_accepted [DecidableEq κ] (L : Libs φ κ N U V ε) (p q : Plan φ κ) (hk : SameKind p q) (hu : SameUnsaid p q) (he : expect p = expect q) (hn : expect p ≠ none) :
    generate L p = generate L q ∨ ∀ s, (∃ x, Means L p s x) ↔ ∃ x, Means L q s x := by
  cases p <;> cases q <;> simp only [SameKind] at hk
  case base.base v a w b =>
    subst hk
    refine .inl ?_
    simp only [expect] at he hn
    have : a.padding = b.padding := by
      split at he <;> first | exact baseExpect_inj _ _ _ (Option.some.inj he) | simp at hn
    simp only [generate, textImpl, bytesImpl, this]
  case basic.basic v a w b =>
    subst hk
    exact .inl rfl
  case byte.byte a b =>
    refine .inl ?_
    simp only [generate, hu.1, hu.2]
  case domain.domain a b =>
    obtain ⟨h1, ⟨h2, h3⟩, h4⟩ := domainExpect_inj a b (Option.some.inj he)
    by_cases hm : a.ipv4 = .must
    · refine .inr fun s => ⟨?_, ?_⟩
      · rintro ⟨x, h⟩
        cases x <;> simp only [Means] at h
        exact domain_half L a b h1 h2 h3 hm hu s _ h
      · rintro ⟨x, h⟩
        cases x <;> simp only [Means] at h
        exact domain_half L b a h1.symm h2.symm h3.symm (h1 ▸ hm) hu.symm s _ h
    · refine .inl ?_
      simp only [generate, h1, h2, h3, h4 hm hu]
  case email.email a b =>
    obtain ⟨h1, h2, h3⟩ := emailExpect_inj a b (Option.some.inj he)
    obtain ⟨h4, h5, h6⟩ := hu
    by_cases hm : a.ip = .must
    · refine .inr fun s => ⟨?_, ?_⟩
      · rintro ⟨x, h⟩
        cases x <;> simp only [Means] at h
        exact email_half L a b h1 h2 h5 h6 hm h4 s _ h
      · rintro ⟨x, h⟩
        cases x <;> simp only [Means] at h
        exact email_half L b a h1.symm h2.symm h5.symm h6.symm (h1 ▸ hm) h4.symm s _ h
    · refine .inl ?_
      simp only [generate, h1, h2, h3 hm, h5, h6]
  case host.host a b =>
    obtain ⟨⟨h1, h2⟩, h3⟩ := hostExpect_inj a b (Option.some.inj he)
    refine .inl ?_
    simp only [generate, h1, h2, h3]
  case url.url v a w b =>
    subst hk
    refine .inl ?_
    simp only [expect] at he hn
    have : a.loc = b.loc := by
      split at he <;> first | exact urlExpect_inj _ _ _ (Option.some.inj he) | simp at hn
    simp only [generate, this]
  case ip.ip v a w b =>
    subst hk
    refine .inl ?_
    simp only [expect] at he hn
    have : a.loc = b.loc ∧ a.port = b.port := by
      split at he <;> first | exact localPort_inj _ _ _ _ (List.cons.inj (Option.some.inj he)).2 | simp at hn
    simp only [generate, ipImpl, this.1, this.2]
  case utf8.utf8 v a w b =>
    subst hk
    simp only [expect] at he hn
    have : utf8Expect (φ := φ) (κ := κ) a.length = utf8Expect b.length := by
      split at he <;> first | exact Option.some.inj he | simp at hn
    rcases utf8Expect_inj _ _ this with ⟨h1, h2⟩ | ⟨i, j, x, h1, h2⟩
    · refine .inr fun s => ⟨?_, ?_⟩
      · rintro ⟨x, h⟩
        cases x <;> simp only [Means] at h
        exact ⟨.text s, rfl, (noLength_ok _ _ h2 s).2 ((noLength_ok _ _ h1 s).1 h.2)⟩
      · rintro ⟨x, h⟩
        cases x <;> simp only [Means] at h
        exact ⟨.text s, rfl, (noLength_ok _ _ h1 s).2 ((noLength_ok _ _ h2 s).1 h.2)⟩
    · have e := hu i x j x h1 h2
      subst e
      refine .inl ?_
      simp only [generate, lineImpl, h1, h2]
  case hex.hex v a w b =>
    subst hk
    refine .inl ?_
    simp only [expect] at he hn
    have : a.case = b.case ∧ a.separator = b.separator := by
      split at he
      · exact hexExpect_inj _ (by decide) _ _ (Option.some.inj he)
      · exact hexExpect_inj _ (by decide) _ _ (Option.some.inj he)
      · simp at hn
    simp only [generate, this.1, this.2]
  case number.number d a e b =>
    subst hk
    refine .inr fun s => ?_
    have h := Option.some.inj he
    rw [number_text, number_text] at h
    obtain ⟨h1, h2⟩ := number_same prints_float _ _ _ _ (List.cons.inj h).2
    refine exists_congr fun x => ?_
    cases x <;> simp only [Means]
    rename_i f
    refine and_congr_right fun _ => ?_
    cases f with
    | none => simp only [FloatOk, h1]
    | some y => simp only [FloatOk, h1, range_same prints_float _ _ h2 y]
  case phone.phone a b =>
    refine .inl ?_
    simp only [generate, phoneExpect_inj _ _ (Option.some.inj he)]
  case regex.regex a b =>
    refine .inl ?_
    simp only [generate, show a.regex = b.regex from hu]
  case int.int c v a d w b =>
    obtain ⟨rfl, rfl⟩ := hk
    refine .inr fun s => ?_
    have h := (List.cons.inj (Option.some.inj he)).2
    rw [range_text, range_text] at h
    refine exists_congr fun x => ?_
    cases x <;> simp only [Means]
    simp only [range_same prints_int _ _ h]

end Verif.Expect
