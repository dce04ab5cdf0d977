import Verif.Proof.Generated

/-!
# C71: from the attribute to the strings that are accepted
-/

namespace Verif.Props.Generated

open Verif Verif.Attr Verif.Derive Verif.Generated Verif.Spec.Generated
open Verif.BaseN (strBytes)
open Verif.Range (Bounds RangeOption)

variable {τ φ κ N U V ε : Type} [LinearOrder φ] [DecidableEq κ]

omit [LinearOrder φ] in
/-- C71: the options that the macro works with are the ones written in the attribute of the item, and for the validator named
there. -/
theorem C71_written (M : Macro τ φ κ) (ast : Input τ) (p : Plan φ κ) (h : derive M ast = .ok p) : ∃ v, Written M ast v p := by
  obtain ⟨a, v, m, ha, hr, h⟩ := (Derive.C63_accepts M ast p).1 h
  suffices ∃ ps, Spec.Attr.Gives M.syn m ps ∧ Options M v ps p ∧ FieldType ast.data p by
    obtain ⟨ps, h1, h2, h3⟩ := this
    exact ⟨v, a, m, ps, ha, hr, h1, h2, h3⟩
  cases v
  all_goals try
    (simp only [handler, Derive.bind_ok_iff, lift_ok] at h
     obtain ⟨x, hx, u, -, e⟩ := h
     cases e
     first
     | (obtain ⟨ps, h1, h2, h3, h4, h5⟩ := (Attr.C53_base ..).1 hx
        exact ⟨ps, h1, ⟨rfl, by simp, h2, h3, h4, h5⟩, trivial⟩)
     | (obtain ⟨ps, h1, h2, h4, h5⟩ := (Attr.C53_basic ..).1 hx
        exact ⟨ps, h1, ⟨rfl, by simp, h2, h4, h5⟩, trivial⟩)
     | (obtain ⟨ps, h1, h2, h3, h4, h5⟩ := (Attr.C53_bit ..).1 hx
        exact ⟨ps, h1, ⟨rfl, h2, h3, h4, h5⟩, trivial⟩)
     | (obtain ⟨ps, h1, h2, h3, h4, h5, h6⟩ := (Attr.C53_byte ..).1 hx
        exact ⟨ps, h1, ⟨rfl, h2, h3, h4, h5, h6⟩, trivial⟩)
     | (obtain ⟨ps, h1, h2, h3, h4, h5⟩ := (Attr.C53_url ..).1 hx
        exact ⟨ps, h1, ⟨rfl, by simp, h2, h3, h4, h5⟩, trivial⟩)
     | (obtain ⟨ps, h1, h2, h3, h4, h5, h6⟩ := (Attr.C53_length ..).1 hx
        exact ⟨ps, h1, ⟨rfl, h2, h3, h4, h5, h6⟩, trivial⟩)
     | (obtain ⟨ps, h1, h2, h3, h4, h5⟩ := (Attr.C53_utf8 ..).1 hx
        exact ⟨ps, h1, ⟨rfl, by simp, h2, h3, h4, h5⟩, trivial⟩)
     | (obtain ⟨ps, h1, h2, h3, h4, h5, h6⟩ := (Attr.C53_hex ..).1 hx
        exact ⟨ps, h1, ⟨rfl, by simp, h2, h3, h4, h5, h6⟩, trivial⟩)
     | (obtain ⟨ps, h1, h2, h3, h4, h5⟩ := (Attr.C53_phone ..).1 hx
        exact ⟨ps, h1, ⟨rfl, h2, h3, h4, h5⟩, trivial⟩)
     | (obtain ⟨ps, h1, h2, h3, h4, h5⟩ := (Attr.C53_regex ..).1 hx
        exact ⟨ps, h1, ⟨rfl, h2, h3, h4, h5⟩, trivial⟩))
  case domain =>
    simp only [handler, domainHandler] at h
    split at h
    · simp only [Derive.bind_ok_iff, lift_ok] at h
      obtain ⟨x, hx, u, -, e⟩ := h
      cases e
      obtain ⟨ps, h1, h2⟩ := (Attr.C53_domain ..).1 (domainConfig_ok hx)
      exact ⟨ps, h1, ⟨rfl, h2⟩, trivial⟩
    · simp only [Derive.bind_ok_iff] at h
      obtain ⟨_, _, e⟩ := h
      cases e
  case email =>
    simp only [handler, emailHandler] at h
    split at h
    · simp only [Derive.bind_ok_iff, lift_ok] at h
      obtain ⟨x, hx, u, -, e⟩ := h
      cases e
      obtain ⟨ps, h1, h2⟩ := (Attr.C53_email ..).1 (emailConfig_ok hx)
      exact ⟨ps, h1, ⟨rfl, h2⟩, trivial⟩
    · simp only [Derive.bind_ok_iff] at h
      obtain ⟨_, _, e⟩ := h
      cases e
  case host =>
    simp only [handler, hostHandler, Derive.bind_ok_iff, lift_ok] at h
    obtain ⟨x, hx, h⟩ := h
    split at h
    · obtain ⟨u, -, e⟩ := (Derive.bind_ok_iff ..).1 h
      cases e
      obtain ⟨ps, h1, h2⟩ := (Attr.C53_host ..).1 hx
      exact ⟨ps, h1, ⟨rfl, h2⟩, trivial⟩
    · cases h
  case number =>
    rcases (Derive.C64_floats M ast.data m p).1 h with ⟨x, hd, hx, rfl⟩ | ⟨x, hd, hx, rfl⟩
    · obtain ⟨ps, h1, h2⟩ := (Attr.C53_number ..).1 (numberConfig_ok hx)
      exact ⟨ps, h1, ⟨rfl, h2⟩, hd⟩
    · obtain ⟨ps, h1, h2⟩ := (Attr.C53_number ..).1 (numberConfig_ok hx)
      exact ⟨ps, h1, ⟨rfl, h2⟩, hd⟩
  case signed_integer =>
    obtain ⟨w, x, hd, hx, rfl⟩ := (Derive.C64_integers M true ast.data m p).1 h
    obtain ⟨ps, h1, h2⟩ := (Attr.C53_range ..).1 hx
    exact ⟨ps, h1, ⟨rfl, h2⟩, hd⟩
  case unsigned_integer =>
    obtain ⟨w, x, hd, hx, rfl⟩ := (Derive.C64_integers M false ast.data m p).1 h
    obtain ⟨ps, h1, h2⟩ := (Attr.C53_range ..).1 hx
    exact ⟨ps, h1, ⟨rfl, h2⟩, hd⟩
  all_goals
    simp only [handler, ipHandler, Derive.bind_ok_iff, lift_ok] at h
    obtain ⟨x, hx, h⟩ := h
    split at h
    · obtain ⟨u, -, e⟩ := (Derive.bind_ok_iff ..).1 h
      cases e
      obtain ⟨ps, h1, h2⟩ := (Attr.C53_ip ..).1 hx
      exact ⟨ps, h1, ⟨rfl, by simp, h2⟩, trivial⟩
    · cases h

omit [LinearOrder φ] in
/-- C71: nothing else can be read from the item, neither another validator nor other options. -/
theorem C71_determined (M : Macro τ φ κ) (ast : Input τ) (p : Plan φ κ) (h : derive M ast = .ok p) (v : Validator) (q : Plan φ κ)
    (hw : Written M ast v q) : q = p := by
  obtain ⟨a, m, ps, ha, hr, hg, ho, hf⟩ := hw
  rw [derive, (select_none M.syn M.enabled ast.attrs v m).2 ⟨a, ha, hr⟩, Out.bind_ok] at h
  replace h : handler M v ast.data m = .ok p := h
  cases q with
  | base w x =>
    obtain ⟨rfl, hv, ho⟩ := ho
    have hx := (Attr.C53_base M.env128 m x).2 ⟨ps, hg, ho⟩
    simp only [List.mem_cons, List.not_mem_nil, or_false] at hv
    rcases hv with rfl | rfl | rfl | rfl | rfl | rfl <;>
      (simp only [handler, hx, lift, Out.bind_ok] at h
       obtain ⟨_, -, h⟩ := (Derive.bind_ok_iff ..).1 h
       cases h; rfl)
  | basic w x =>
    obtain ⟨rfl, hv, ho⟩ := ho
    have hx := (Attr.C53_basic M.env128 m x).2 ⟨ps, hg, ho⟩
    simp only [List.mem_cons, List.not_mem_nil, or_false] at hv
    rcases hv with rfl | rfl | rfl | rfl | rfl <;>
      (simp only [handler, hx, lift, Out.bind_ok] at h
       obtain ⟨_, -, h⟩ := (Derive.bind_ok_iff ..).1 h
       cases h; rfl)
  | bit x =>
    obtain ⟨rfl, ho⟩ := ho
    have hx := (Attr.C53_bit M.env128 m x).2 ⟨ps, hg, ho⟩
    simp only [handler, hx, lift, Out.bind_ok] at h
    obtain ⟨_, -, h⟩ := (Derive.bind_ok_iff ..).1 h
    cases h; rfl
  | byte x =>
    obtain ⟨rfl, ho⟩ := ho
    have hx := (Attr.C53_byte M.env128 m x).2 ⟨ps, hg, ho⟩
    simp only [handler, hx, lift, Out.bind_ok] at h
    obtain ⟨_, -, h⟩ := (Derive.bind_ok_iff ..).1 h
    cases h; rfl
  | domain x =>
    obtain ⟨rfl, ho⟩ := ho
    have hx := (Attr.C53_domain M.env128 m x).2 ⟨ps, hg, ho⟩
    simp only [handler, domainHandler] at h
    split at h
    · obtain ⟨y, hy, h⟩ := (Derive.bind_ok_iff ..).1 h
      obtain ⟨_, -, h⟩ := (Derive.bind_ok_iff ..).1 h
      cases h
      have := domainConfig_ok ((lift_ok ..).1 hy)
      rw [hx] at this
      cases this; rfl
    · obtain ⟨_, -, h⟩ := (Derive.bind_ok_iff ..).1 h
      cases h
  | email x =>
    obtain ⟨rfl, ho⟩ := ho
    have hx := (Attr.C53_email M.env128 m x).2 ⟨ps, hg, ho⟩
    simp only [handler, emailHandler] at h
    split at h
    · obtain ⟨y, hy, h⟩ := (Derive.bind_ok_iff ..).1 h
      obtain ⟨_, -, h⟩ := (Derive.bind_ok_iff ..).1 h
      cases h
      have := emailConfig_ok ((lift_ok ..).1 hy)
      rw [hx] at this
      cases this; rfl
    · obtain ⟨_, -, h⟩ := (Derive.bind_ok_iff ..).1 h
      cases h
  | host x =>
    obtain ⟨rfl, ho⟩ := ho
    have hx := (Attr.C53_host M.env128 m x).2 ⟨ps, hg, ho⟩
    simp only [handler, hostHandler, hx, lift, Out.bind_ok] at h
    split at h
    · obtain ⟨_, -, h⟩ := (Derive.bind_ok_iff ..).1 h
      cases h; rfl
    · cases h
  | url w x =>
    obtain ⟨rfl, hv, ho⟩ := ho
    have hx := (Attr.C53_url M.env128 m x).2 ⟨ps, hg, ho⟩
    simp only [List.mem_cons, List.not_mem_nil, or_false] at hv
    rcases hv with rfl | rfl <;>
      (simp only [handler, hx, lift, Out.bind_ok] at h
       obtain ⟨_, -, h⟩ := (Derive.bind_ok_iff ..).1 h
       cases h; rfl)
  | ip w x =>
    obtain ⟨rfl, hv, ho⟩ := ho
    have hx := (Attr.C53_ip M.env128 m x).2 ⟨ps, hg, ho⟩
    simp only [List.mem_cons, List.not_mem_nil, or_false] at hv
    rcases hv with rfl | rfl | rfl <;>
      (simp only [handler, ipHandler, hx, lift, Out.bind_ok] at h
       split at h
       · obtain ⟨_, -, h⟩ := (Derive.bind_ok_iff ..).1 h
         cases h; rfl
       · cases h)
  | length x =>
    obtain ⟨rfl, ho⟩ := ho
    have hx := (Attr.C53_length M.env128 m x).2 ⟨ps, hg, ho⟩
    simp only [handler, hx, lift, Out.bind_ok] at h
    obtain ⟨_, -, h⟩ := (Derive.bind_ok_iff ..).1 h
    cases h; rfl
  | utf8 w x =>
    obtain ⟨rfl, hv, ho⟩ := ho
    have hx := (Attr.C53_utf8 M.env128 m x).2 ⟨ps, hg, ho⟩
    simp only [List.mem_cons, List.not_mem_nil, or_false] at hv
    rcases hv with rfl | rfl <;>
      (simp only [handler, hx, lift, Out.bind_ok] at h
       obtain ⟨_, -, h⟩ := (Derive.bind_ok_iff ..).1 h
       cases h; rfl)
  | hex w x =>
    obtain ⟨rfl, hv, ho⟩ := ho
    simp only [List.mem_cons, List.not_mem_nil, or_false] at hv
    rcases hv with rfl | rfl
    · have hx : macAttribute M.env128 m = .ok x := (Attr.C53_hex ':' M.env128 m x).2 ⟨ps, hg, ho⟩
      simp only [handler, hx, lift, Out.bind_ok] at h
      obtain ⟨_, -, h⟩ := (Derive.bind_ok_iff ..).1 h
      cases h; rfl
    · have hx : uuidAttribute M.env128 m = .ok x := (Attr.C53_hex '-' M.env128 m x).2 ⟨ps, hg, ho⟩
      simp only [handler, hx, lift, Out.bind_ok] at h
      obtain ⟨_, -, h⟩ := (Derive.bind_ok_iff ..).1 h
      cases h; rfl
  | number double x =>
    obtain ⟨rfl, ho⟩ := ho
    have hx := (Attr.C53_number (M.env (if double then M.f64 else M.f32)) m x).2 ⟨ps, hg, ho⟩
    rcases (Derive.C64_floats M ast.data m p).1 h with ⟨y, hd, hy, rfl⟩ | ⟨y, hd, hy, rfl⟩
    · rw [FieldType, hd] at hf
      cases double with
      | true => simp at hf
      | false =>
        have := hx.symm.trans (numberConfig_ok hy)
        cases this; rfl
    · rw [FieldType, hd] at hf
      cases double with
      | false => simp at hf
      | true =>
        have := hx.symm.trans (numberConfig_ok hy)
        cases this; rfl
  | phone x =>
    obtain ⟨rfl, ho⟩ := ho
    have hx := (Attr.C53_phone M.env128 m x).2 ⟨ps, hg, ho⟩
    simp only [handler, hx, lift, Out.bind_ok] at h
    obtain ⟨_, -, h⟩ := (Derive.bind_ok_iff ..).1 h
    cases h; rfl
  | regex x =>
    obtain ⟨rfl, ho⟩ := ho
    have hx := (Attr.C53_regex M.env128 m x).2 ⟨ps, hg, ho⟩
    simp only [handler, hx, lift, Out.bind_ok] at h
    obtain ⟨_, -, h⟩ := (Derive.bind_ok_iff ..).1 h
    cases h; rfl
  | int signed w x =>
    obtain ⟨rfl, ho⟩ := ho
    have hx := (Attr.C53_range (M.env (intTy signed (IntV.bits M.ptr w))) m x).2 ⟨ps, hg, ho⟩
    obtain ⟨w', y, hd, hy, rfl⟩ := (Derive.C64_integers M signed ast.data m p).1 h
    rw [FieldType, hd] at hf
    have : w' = w := by
      simp only [Data.struct.injEq, Fields.unnamed.injEq, List.cons.injEq, and_true] at hf
      revert hf
      cases signed <;> cases w <;> cases w' <;> simp [Spec.Derive.intName]
    subst this
    rw [hx] at hy
    cases hy; rfl

/-! ## What the generated code accepts -/


omit [LinearOrder φ] [DecidableEq κ] in
theorem same_refl (x : Value φ κ N U V) : Same x x := by
  cases x with
  | phone v =>
    cases v with
    | numbers m => exact List.Perm.refl m
    | number n => rfl
  | _ => rfl

omit [LinearOrder φ] [DecidableEq κ] in
theorem both {Q : Prop} {r : Out (Error ε) (Value φ κ N U V)} {x : Value φ κ N U V} (h : r = .ok x ↔ Q) :
    (r = .ok x → Q) ∧ (Q → ∃ y, r = .ok y ∧ Same y x) := ⟨h.1, fun k => ⟨x, h.2 k, same_refl x⟩⟩

omit [DecidableEq κ] in
/-- A value that is the same is allowed as well. -/
theorem means_same (L : Libs φ κ N U V ε) (p : Plan φ κ) (s : List Char) (x y : Value φ κ N U V) (h : Means L p s y) (hs : Same y x) : Means L p s x := by
  unfold Same at hs
  split at hs
  · cases p <;> simp only [Means] at h ⊢
    rename_i m n a
    revert h
    match a.countries with
    | [] => exact id
    | [c] => exact id
    | c :: d :: cs =>
      rintro ⟨h1, h2, h3, h4⟩
      refine ⟨h1, ?_, fun e k => hs.mem_iff.symm.trans (h3 e k), (hs.map _).nodup_iff.1 h4⟩
      rintro rfl
      exact h2 hs.eq_nil
  · exact hs ▸ h

theorem nodup_of_keys {A B : Type} {m : List (A × B)} (h : (m.map (·.1)).Nodup) : m.Nodup :=
  List.Pairwise.of_map _ (fun a b hab e => hab (congrArg _ e)) h

/-- The outcome of an accepted configuration, for every string: sound always, complete up to the order of a map of numbers. -/
theorem meaning (L : Libs φ κ N U V ε) (hu : Spec.Url.HostsPresent L.url) (p : Plan φ κ) (hp : SizesOk p) (I : Impl (Error ε) (Value φ κ N U V))
    (hI : generate L p = some I) (hm : ¬ LargestMax L.ptr p) (s : List Char) (x : Value φ κ N U V) :
    (I.parseStr s = .ok x → Means L p s x) ∧ (Means L p s x → ∃ y, I.parseStr s = .ok y ∧ Same y x) := by
  cases p with
  | base v a =>
    simp only [generate] at hI
    split at hI <;> cases hI <;> refine both ?_
    · refine (text_ok .base32 a s x).trans ?_
      cases x <;> simp [Means, notationOf, BaseN.Kind.spec]
    · refine (bytes_ok .base32 a s x).trans ?_
      cases x <;> simp [Means, notationOf, BaseN.Kind.spec]
    · refine (text_ok .base64 a s x).trans ?_
      cases x <;> simp [Means, notationOf, BaseN.Kind.spec]
    · refine (bytes_ok .base64 a s x).trans ?_
      cases x <;> simp [Means, notationOf, BaseN.Kind.spec]
    · refine (text_ok .base64Url a s x).trans ?_
      cases x <;> simp [Means, notationOf, BaseN.Kind.spec]
    · refine (bytes_ok .base64Url a s x).trans ?_
      cases x <;> simp [Means, notationOf, BaseN.Kind.spec]
  | basic v a =>
    simp only [generate] at hI
    split at hI <;> cases hI <;> refine both ?_
    · rw [make_parse]
      obtain ⟨h1, h2, -⟩ := Boolean.C22_words (strBytes s)
      have : ∀ b, Boolean.parseStr (strBytes s) = .ok b ↔
          (strBytes s).map Spec.Boolean.lower ∈ (if b then Spec.Boolean.trueWords else Spec.Boolean.falseWords) := by
        intro b; cases b
        · simpa using h2
        · simpa using h1
      simp only [this]
      cases x <;> simp [Means]
    all_goals
      simp only [libImpl, make_parse, (Wrapper.C48_library _ (strBytes s)).2.2.1]
      cases x <;> simp [Means]
  | bit a =>
    refine both ((size_ok L.bit a.range hp I hI s x).trans ?_)
    cases x <;> simp [Means]
  | byte a =>
    refine both ((size_ok _ a.range hp I hI s x).trans ?_)
    cases x <;> simp [Means]
  | domain a =>
    simp only [generate] at hI
    cases hI
    refine both ?_
    rw [make_parse]
    simp only [Domain.C58_domain]
    cases x <;> simp [Means, domainOpts]
  | email a =>
    simp only [generate] at hI
    cases hI
    refine both ?_
    rw [make_parse]
    simp only [Email.C62_email]
    cases x <;> simp [Means, emailOpts]
  | host a =>
    simp only [generate] at hI
    cases hI
    refine both ?_
    rw [make_parse]
    simp only [Host.C37_host]
    cases x <;> simp [Means, hostOpts]
  | url v a =>
    simp only [generate] at hI
    split at hI <;> cases hI <;> refine both ?_ <;> rw [make_parse]
    · simp only [(Url.C46_entry_points L.url a.loc (strBytes s)).1, Prod.exists, (Url.C46_http L.url hu a.loc (strBytes s)).1]
      cases x <;> simp [Means, Url.flagScheme]
      rename_i u b
      cases b <;> simp
    · simp only [(Url.C46_entry_points L.url a.loc (strBytes s)).2.2.1, Prod.exists, (Url.C46_http_ftp L.url hu a.loc (strBytes s)).1]
      cases x <;> simp [Means]
  | ip v a =>
    simp only [generate] at hI
    split at hI <;> cases hI <;> refine both ?_ <;> rw [ipImpl, make_parse] <;> simp only [Prod.exists]
    · simp only [Ip.C30_parse]
      cases x <;> simp [Means]
    · simp only [Ip.C28_parse]
      cases x <;> simp [Means]
    · simp only [Ip.C29_parse]
      cases x <;> simp [Means]
  | length a => cases hI
  | utf8 v a =>
    simp only [generate] at hI
    split at hI <;> cases hI <;> refine both ((line_ok L _ _ a hm hp s x).trans ?_) <;> cases x <;> simp [Means]
  | hex v a =>
    simp only [generate] at hI
    split at hI <;> cases hI <;> refine both ?_ <;> rw [make_parse]
    · simp only [Hex.C11_mac_exact]
      cases x <;> simp [Means]
    · simp only [Hex.C08_uuid_exact]
      cases x <;> simp [Means]
  | number double a =>
    refine both ((number_ok _ a I hI s x).trans ?_)
    cases x <;> simp [Means]
  | phone a =>
    simp only [generate] at hI
    cases hI
    have key : ∀ y, (Phone.parseStr L.phone a.countries (strBytes s) = .ok y → PhoneOk L.phone (strBytes s) a.countries y) ∧
        (PhoneOk L.phone (strBytes s) a.countries y → ∃ z, Phone.parseStr L.phone a.countries (strBytes s) = .ok z ∧
          Same (φ := φ) (U := U) (V := V) (.phone z) (.phone y)) := by
      intro y
      match a.countries with
      | [] =>
        have e := (Phone.C47_international L.phone (strBytes s)).1
        rw [e y]
        constructor
        · rintro ⟨n, rfl, h⟩
          exact h
        · intro h
          cases y with
          | number n => exact ⟨_, (e _).2 ⟨n, rfl, h⟩, rfl⟩
          | numbers m => exact h.elim
      | [c] =>
        have e := (Phone.C47_one L.phone c (strBytes s)).1
        rw [e y]
        constructor
        · rintro ⟨n, rfl, h⟩
          exact h
        · intro h
          cases y with
          | number n => exact ⟨_, (e _).2 ⟨n, rfl, h⟩, rfl⟩
          | numbers m => exact h.elim
      | c :: d :: cs =>
        obtain ⟨h1, h2, -⟩ := Phone.C47_several L.phone (c :: d :: cs) (by simp) (strBytes s)
        constructor
        · intro h
          obtain ⟨m, rfl, h3, h4⟩ := h2 y h
          obtain ⟨h5, e, he, n, hn⟩ := h1.1 ⟨_, h⟩
          refine ⟨h5, ?_, h3, h4⟩
          rintro rfl
          exact nomatch (h3 e n).2 ⟨he, hn⟩
        · cases y with
          | number n => exact fun h => h.elim
          | numbers m =>
            rintro ⟨hr, hne, hm, hn⟩
            obtain ⟨z, hz⟩ := h1.2 (by
              cases m with
              | nil => exact absurd rfl hne
              | cons q _ =>
                obtain ⟨e, n⟩ := q
                obtain ⟨h3, h4⟩ := (hm e n).1 (by simp)
                exact ⟨hr, e, h3, n, h4⟩)
            refine ⟨z, hz, ?_⟩
            obtain ⟨k, rfl, h3, h4⟩ := h2 z hz
            exact (List.perm_ext_iff_of_nodup (nodup_of_keys h4) (nodup_of_keys hn)).2 fun ⟨e, n⟩ => (h3 e n).trans (hm e n).symm
    constructor
    · rw [make_parse]
      rintro ⟨y, h, rfl⟩
      exact (key y).1 h
    · intro h
      cases x <;> simp [Means] at h
      obtain ⟨z, hz, hs⟩ := (key _).2 h
      exact ⟨_, (make_parse ..).2 ⟨z, hz, rfl⟩, hs⟩
  | regex a =>
    simp only [generate] at hI
    cases hI
    refine both ?_
    rw [make_parse]
    simp only [(Wrapper.C48_regex _ (strBytes s)).2.1]
    constructor
    · rintro ⟨t, ⟨h, rfl⟩, rfl⟩
      exact ⟨rfl, h⟩
    · intro h
      cases x <;> simp [Means] at h
      exact ⟨_, ⟨h.2, h.1⟩, rfl⟩
  | int signed w a =>
    refine both ((int_ok L.ptr signed w a I hI s x).trans ?_)
    cases x <;> simp [Means]

/-- C71, values: if the macro accepts the item, then its options are the ones written there, and the generated `parse_str` accepts
only strings that they allow, with the value that they determine. The contract of the URL library is the one of C46. -/
theorem C71_sound_partial (M : Macro τ φ κ) (ast : Input τ) (p : Plan φ κ) (h : derive M ast = .ok p) (L : Libs φ κ N U V ε)
    (hu : Spec.Url.HostsPresent L.url) (I : Impl (Error ε) (Value φ κ N U V)) (hI : generate L p = some I) (hm : ¬ LargestMax L.ptr p) (s : List Char)
    (x : Value φ κ N U V) (hx : I.parseStr s = .ok x) : (∃ v, Written M ast v p) ∧ Means L p s x := by
  obtain ⟨v, hw⟩ := C71_written M ast p h
  have ho := hw
  obtain ⟨a, m, ps, -, -, -, ho, -⟩ := ho
  exact ⟨⟨v, hw⟩, (meaning L hu p (sizesOk M v ps p ho) I hI hm s x).1 hx⟩

/-- C71 inherits C73: with the largest maximum of characters and no minimum, a program without overflow checks accepts every
string, and one with overflow checks panics on every string. -/
theorem C71_violated_largest (L : Libs φ κ N U V ε) (a : Utf8Attribute) (I : Impl (Error ε) (Value φ κ N U V))
    (ha : a.length = some (false, ⟨none, none, some (2 ^ IntV.bits L.ptr .size - 1)⟩)) (hI : generate L (.utf8 .line a) = some I)
    (s : List Char) : I.parseStr s = if L.checked = true then .panic else .ok (.text s) := by
  simp only [generate] at hI
  cases hI
  simp only [lineImpl, ha, Impl.make, usizeMax]
  cases L.checked with
  | true => simp [LineMax.C73_panics, mapErr, Out.map]
  | false => simp [LineMax.C73_wraps, mapErr, Out.map]

/-- C71: exactly those strings, with exactly that value. A map of numbers (`phone` with several countries) may have its entries in
any order. -/
theorem C71_exact_partial (M : Macro τ φ κ) (ast : Input τ) (p : Plan φ κ) (h : derive M ast = .ok p) (L : Libs φ κ N U V ε)
    (hu : Spec.Url.HostsPresent L.url) (I : Impl (Error ε) (Value φ κ N U V)) (hI : generate L p = some I) (hm : ¬ LargestMax L.ptr p)
    (s : List Char) (x : Value φ κ N U V) : (∃ y, I.parseStr s = .ok y ∧ Same y x) ↔ Means L p s x := by
  obtain ⟨v, a, m, ps, -, -, -, ho, -⟩ := C71_written M ast p h
  have := meaning L hu p (sizesOk M v ps p ho) I hI hm s
  exact ⟨fun ⟨y, h1, h2⟩ => means_same L p s x y ((this y).1 h1) h2, (this x).2⟩

/-- C71: which strings are accepted. -/
theorem C71_accepts_partial (M : Macro τ φ κ) (ast : Input τ) (p : Plan φ κ) (h : derive M ast = .ok p) (L : Libs φ κ N U V ε)
    (hu : Spec.Url.HostsPresent L.url) (I : Impl (Error ε) (Value φ κ N U V)) (hI : generate L p = some I) (hm : ¬ LargestMax L.ptr p)
    (s : List Char) : (I.parseStr s).IsOk ↔ ∃ x, Means L p s x := by
  simp only [← C71_exact_partial M ast p h L hu I hI hm]
  exact ⟨fun ⟨x, h⟩ => ⟨x, x, h, same_refl x⟩, fun ⟨_, y, h, _⟩ => ⟨y, h⟩⟩

/-- C71: the three entry points of one generated `impl` agree, errors and panics included; `validate_str` of the decoding validators
does not (C07). -/
theorem C71_entry_points (L : Libs φ κ N U V ε) (p : Plan φ κ) (I : Impl (Error ε) (Value φ κ N U V)) (hI : generate L p = some I)
    (s : List Char) : I.parseString s = I.parseStr s ∧ (¬ Decoded p → I.validateStr s = (I.parseStr s).void) := by
  cases p with
  | base v a =>
    simp only [generate] at hI
    split at hI <;> cases hI
    · exact ⟨make_string _ _ _ _ _ _ (BaseN.C03_entry_points_agree .base32 a.padding s _ rfl).1,
        fun _ => make_validate _ _ _ _ _ _ (BaseN.C03_entry_points_agree .base32 a.padding s _ rfl).2.2.2.1⟩
    · exact ⟨rfl, fun h => absurd (by simp [Decoded]) h⟩
    · exact ⟨make_string _ _ _ _ _ _ (BaseN.C03_entry_points_agree .base64 a.padding s _ rfl).1,
        fun _ => make_validate _ _ _ _ _ _ (BaseN.C03_entry_points_agree .base64 a.padding s _ rfl).2.2.2.1⟩
    · exact ⟨rfl, fun h => absurd (by simp [Decoded]) h⟩
    · exact ⟨make_string _ _ _ _ _ _ (BaseN.C03_entry_points_agree .base64Url a.padding s _ rfl).1,
        fun _ => make_validate _ _ _ _ _ _ (BaseN.C03_entry_points_agree .base64Url a.padding s _ rfl).2.2.2.1⟩
    · exact ⟨rfl, fun h => absurd (by simp [Decoded]) h⟩
  | basic v a =>
    simp only [generate] at hI
    split at hI <;> cases hI
    · exact ⟨rfl, fun _ => make_validate _ _ _ _ _ _ rfl⟩
    all_goals
      refine ⟨make_string _ _ _ _ _ _ rfl, fun _ => make_validate _ _ _ _ _ _ ?_⟩
      simp only [Wrapper.validateStr, Wrapper.parseStr, Wrapper.vParse]
      split <;> rfl
  | bit a =>
    simp only [generate, sizeImpl, Option.map_eq_some_iff] at hI
    obtain ⟨chk, -, rfl⟩ := hI
    exact ⟨rfl, fun _ => make_validate _ _ _ _ _ _ rfl⟩
  | byte a =>
    simp only [generate, sizeImpl, Option.map_eq_some_iff] at hI
    obtain ⟨chk, -, rfl⟩ := hI
    exact ⟨rfl, fun _ => make_validate _ _ _ _ _ _ rfl⟩
  | domain a =>
    simp only [generate] at hI
    cases hI
    exact ⟨rfl, fun _ => make_validate _ _ _ _ _ _ (Domain.C58_validate ..)⟩
  | email a =>
    simp only [generate] at hI
    cases hI
    exact ⟨rfl, fun _ => make_validate _ _ _ _ _ _ (Email.C62_validate ..)⟩
  | host a =>
    simp only [generate] at hI
    cases hI
    exact ⟨rfl, fun _ => make_validate _ _ _ _ _ _ (Host.C37_validate ..)⟩
  | url v a =>
    simp only [generate] at hI
    obtain ⟨h1, h2, h3, h4⟩ := Url.C46_entry_points L.url a.loc (strBytes s)
    split at hI <;> cases hI
    · exact ⟨rfl, fun _ => make_validate _ _ _ _ _ _ (h2.trans (by rw [h1]))⟩
    · exact ⟨rfl, fun _ => make_validate _ _ _ _ _ _ (h4.trans (by rw [h3]))⟩
  | ip v a =>
    simp only [generate] at hI
    split at hI <;> cases hI
    · exact ⟨rfl, fun _ => make_validate _ _ _ _ _ _ (Ip.C30_validate ..)⟩
    · exact ⟨rfl, fun _ => make_validate _ _ _ _ _ _ (Ip.C28_validate ..)⟩
    · exact ⟨rfl, fun _ => make_validate _ _ _ _ _ _ (Ip.C29_validate ..)⟩
  | length a => cases hI
  | utf8 v a =>
    simp only [generate] at hI
    split at hI <;> cases hI <;> simp only [lineImpl] <;> split <;>
      first
      | exact ⟨rfl, fun _ => make_validate _ _ _ _ _ _ (Line.C23_validate_agrees ..)⟩
      | exact ⟨rfl, fun _ => make_validate _ _ _ _ _ _ (LineMax.C73_validate_agrees ..)⟩
  | hex v a =>
    simp only [generate] at hI
    split at hI <;> cases hI
    · exact ⟨rfl, fun _ => make_validate _ _ _ _ _ _ (Hex.C12_mac_validate_agrees ..)⟩
    · exact ⟨rfl, fun _ => make_validate _ _ _ _ _ _ (Hex.C09_uuid_validate_agrees ..)⟩
  | number double a =>
    simp only [generate, numberImpl, Option.map_eq_some_iff] at hI
    obtain ⟨chk, -, rfl⟩ := hI
    exact ⟨rfl, fun _ => make_validate _ _ _ _ _ _ rfl⟩
  | phone a =>
    simp only [generate] at hI
    cases hI
    exact ⟨rfl, fun _ => make_validate _ _ _ _ _ _ (Phone.C47_validate ..)⟩
  | regex a =>
    simp only [generate] at hI
    cases hI
    refine ⟨make_string _ _ _ _ _ _ rfl, fun _ => make_validate _ _ _ _ _ _ ?_⟩
    simp only [Regex.validateStr, Regex.parseStr, Regex.vParse]
    split <;> rfl
  | int signed w a =>
    simp only [generate, intImpl, Option.map_eq_some_iff] at hI
    obtain ⟨chk, -, rfl⟩ := hI
    exact ⟨rfl, fun _ => make_validate _ _ _ _ _ _ rfl⟩

theorem parse_panics (L : Libs φ κ N U V ε) (hu : Spec.Url.HostsPresent L.url) (p : Plan φ κ) (hp : SizesOk p)
    (I : Impl (Error ε) (Value φ κ N U V)) (hI : generate L p = some I) (s : List Char) :
    (I.parseStr s = .panic ↔ Panics L.checked L.ptr p s) ∧ (Decoded p → I.validateStr s ≠ .panic) := by
  cases p with
  | base v a =>
    simp only [generate] at hI
    split at hI <;> cases hI <;> simp only [textImpl, bytesImpl, ne_eq, make_panic, make_validate_panic, Panics, iff_false]
    · exact ⟨text_no_panic .base32 _ _, by simp [Decoded]⟩
    · exact ⟨(BaseN.C06_errors .base32 _ _).1, fun _ => decoded_no_panic .base32 _ _⟩
    · exact ⟨text_no_panic .base64 _ _, by simp [Decoded]⟩
    · exact ⟨(BaseN.C06_errors .base64 _ _).1, fun _ => decoded_no_panic .base64 _ _⟩
    · exact ⟨text_no_panic .base64Url _ _, by simp [Decoded]⟩
    · exact ⟨(BaseN.C06_errors .base64Url _ _).1, fun _ => decoded_no_panic .base64Url _ _⟩
  | basic v a =>
    refine ⟨?_, nofun⟩
    simp only [generate] at hI
    split at hI <;> cases hI <;> simp only [libImpl, make_panic, Panics, iff_false]
    · exact (Boolean.C22_words _).2.2.2
    all_goals exact (Wrapper.C48_library _ _).2.2.2.2.2.2.2.1
  | bit a =>
    simp only [generate, sizeImpl, Option.map_eq_some_iff] at hI
    obtain ⟨chk, hc, rfl⟩ := hI
    exact ⟨iff_of_false ((make_panic ..).not.2 (size_no_panic _ _ chk hc _)) id, nofun⟩
  | byte a =>
    simp only [generate, sizeImpl, Option.map_eq_some_iff] at hI
    obtain ⟨chk, hc, rfl⟩ := hI
    exact ⟨iff_of_false ((make_panic ..).not.2 (size_no_panic _ _ chk hc _)) id, nofun⟩
  | domain a =>
    simp only [generate] at hI
    cases hI
    exact ⟨iff_of_false ((make_panic ..).not.2 (Domain.C33_domain ..).1) id, nofun⟩
  | email a =>
    simp only [generate] at hI
    cases hI
    refine ⟨(make_panic ..).trans ?_, nofun⟩
    exact Email.C40_exact _ _ _
  | host a =>
    simp only [generate] at hI
    cases hI
    exact ⟨iff_of_false ((make_panic ..).not.2 (Host.C33_host ..).1) id, nofun⟩
  | url v a =>
    simp only [generate] at hI
    obtain ⟨h1, -, h3, -⟩ := Url.C46_entry_points L.url a.loc (strBytes s)
    split at hI <;> cases hI <;> refine ⟨iff_of_false ((make_panic ..).not.2 ?_) id, nofun⟩
    · rw [h1]; exact (Url.C46_http L.url hu a.loc (strBytes s)).2.2.2.2.2
    · rw [h3]; exact (Url.C46_http_ftp L.url hu a.loc (strBytes s)).2.2.2.2.2
  | ip v a =>
    simp only [generate] at hI
    obtain ⟨h1, -, h2, -, h3, -⟩ := Ip.C33_ip a.loc a.port s
    split at hI <;> cases hI <;> refine ⟨iff_of_false ((make_panic ..).not.2 ?_) id, nofun⟩
    · exact h3
    · exact h1
    · exact h2
  | length a => cases hI
  | utf8 v a =>
    simp only [generate] at hI
    refine ⟨?_, nofun⟩
    have key : ∀ k, (lineImpl L k a).parseStr s = .panic ↔ Panics L.checked L.ptr (.utf8 v a : Plan φ κ) s := by
      intro k
      simp only [lineImpl]
      split
      · rename_i l0 hl
        rw [make_panic]
        by_cases hm : LargestMax L.ptr (.utf8 v a : Plan φ κ)
        · obtain ⟨l, m, h1, h2, h3⟩ := id hm
          rw [hl] at h1
          obtain ⟨rfl, rfl⟩ := Prod.mk.inj (Option.some.inj h1)
          have hn : ¬ m < usizeMax L.ptr := Nat.not_lt.2 h3
          simp only [Panics, hm, and_true, h2, Line.parseAt, Line.checkAt, Line.plusOne, hn, if_false]
          cases hc : L.checked
          · have := fun t => Line.C23_no_panic k false _ t _ (s.take 0) (hp _ _ hl)
            rw [h2] at this
            simp only [Bool.false_eq_true, if_false, Out.bind, iff_false]
            intro hb
            split at hb <;> cases hb
            rename_i hk
            refine this l0.trimmedMin ?_
            unfold Line.parseStr
            rw [hk]
            rfl
          · simp [Out.bind]
        · rw [(LineMax.C73_below _ _ _ _ _ _ _ _ (line_max hm _ _ hl)).1]
          exact iff_of_false (Line.C23_no_panic _ _ _ _ _ _ (hp _ _ hl)) fun h => hm h.2
      · rename_i hl
        refine iff_of_false ((make_panic ..).not.2 (Line.C23_no_panic _ _ _ _ _ _ nofun)) ?_
        rintro ⟨-, l, m, h1, -⟩
        rw [hl] at h1
        cases h1
    split at hI <;> cases hI <;> exact key _
  | hex v a =>
    simp only [generate] at hI
    split at hI <;> cases hI
    · refine ⟨(make_panic ..).trans ((Hex.C12_mac_exact_partial _ _ _).trans ?_), nofun⟩
      simp [Panics]
    · refine ⟨iff_of_false ((make_panic ..).not.2 (Hex.C09_uuid_no_panic ..).1) ?_, nofun⟩
      simp [Panics]
  | number double a =>
    simp only [generate, numberImpl, Option.map_eq_some_iff] at hI
    obtain ⟨chk, hc, rfl⟩ := hI
    exact ⟨iff_of_false ((make_panic ..).not.2 (number_no_panic _ _ _ chk hc _)) id, nofun⟩
  | phone a =>
    simp only [generate] at hI
    cases hI
    refine ⟨iff_of_false ((make_panic ..).not.2 ?_) id, nofun⟩
    match a.countries with
    | [] => exact (Phone.C47_international L.phone (strBytes s)).2.2.2
    | [c] => exact (Phone.C47_one L.phone c (strBytes s)).2.2.2
    | c :: d :: cs => exact (Phone.C47_several L.phone (c :: d :: cs) (by simp) (strBytes s)).2.2.2.2
  | regex a =>
    simp only [generate] at hI
    cases hI
    exact ⟨iff_of_false ((make_panic ..).not.2 (Wrapper.C48_regex _ (strBytes s)).2.2.2.2.1) id, nofun⟩
  | int signed w a =>
    simp only [generate, intImpl, Option.map_eq_some_iff] at hI
    obtain ⟨chk, hc, rfl⟩ := hI
    exact ⟨iff_of_false ((make_panic ..).not.2 (Range.C16_errors L.ptr signed w a.range chk hc _).2.2) id, nofun⟩

/-- C71: the strings that make a generated validator panic are those of `Panics`, the findings C12, C40 and C73, by every entry
point. -/
theorem C71_panics_partial (M : Macro τ φ κ) (ast : Input τ) (p : Plan φ κ) (h : derive M ast = .ok p) (L : Libs φ κ N U V ε)
    (hu : Spec.Url.HostsPresent L.url) (I : Impl (Error ε) (Value φ κ N U V)) (hI : generate L p = some I) (s : List Char) :
    (I.parseString s = .panic ↔ Panics L.checked L.ptr p s) ∧ (I.parseStr s = .panic ↔ Panics L.checked L.ptr p s) ∧
    (I.validateStr s = .panic ↔ Panics L.checked L.ptr p s) := by
  obtain ⟨v, a, m, ps, -, -, -, ho, -⟩ := C71_written M ast p h
  obtain ⟨h1, h2⟩ := parse_panics L hu p (sizesOk M v ps p ho) I hI s
  obtain ⟨h3, h4⟩ := C71_entry_points L p I hI s
  refine ⟨by rw [h3]; exact h1, h1, ?_⟩
  by_cases hd : Decoded p
  · refine iff_of_false (h2 hd) ?_
    cases p <;> first | exact id | exact hd.elim
  · rw [h4 hd, void_panic]
    exact h1

/-- C71: there is such an `impl`, and it compiles, for all accepted items except the ones of `HasImpl`: `length`, and the `Outside`
ranges of C18. -/
theorem C71_has_impl (M : Macro τ φ κ) (ast : Input τ) (p : Plan φ κ) (h : derive M ast = .ok p) (L : Libs φ κ N U V ε)
    (hptr : L.ptr = M.ptr) : (generate L p).isSome ↔ HasImpl p := by
  obtain ⟨v, a, m, ps, -, -, hg, ho, -⟩ := C71_written M ast p h
  cases p with
  | base w a =>
    obtain ⟨rfl, hv, -⟩ := ho
    simp only [List.mem_cons, List.not_mem_nil, or_false] at hv
    rcases hv with rfl | rfl | rfl | rfl | rfl | rfl <;> simp [generate, HasImpl]
  | basic w a =>
    obtain ⟨rfl, hv, -⟩ := ho
    simp only [List.mem_cons, List.not_mem_nil, or_false] at hv
    rcases hv with rfl | rfl | rfl | rfl | rfl <;> simp [generate, HasImpl]
  | bit a => simp [generate, HasImpl, sizeImpl, Range.C18_size_closed_partial]
  | byte a => simp [generate, HasImpl, sizeImpl, Range.C18_size_closed_partial]
  | url w a =>
    obtain ⟨rfl, hv, -⟩ := ho
    simp only [List.mem_cons, List.not_mem_nil, or_false] at hv
    rcases hv with rfl | rfl <;> simp [generate, HasImpl]
  | ip w a =>
    obtain ⟨rfl, hv, -⟩ := ho
    simp only [List.mem_cons, List.not_mem_nil, or_false] at hv
    rcases hv with rfl | rfl | rfl <;> simp [generate, HasImpl]
  | length a => simp [generate, HasImpl]
  | utf8 w a =>
    obtain ⟨rfl, hv, -⟩ := ho
    simp only [List.mem_cons, List.not_mem_nil, or_false] at hv
    rcases hv with rfl | rfl <;> simp [generate, HasImpl]
  | hex w a =>
    obtain ⟨rfl, hv, -⟩ := ho
    simp only [List.mem_cons, List.not_mem_nil, or_false] at hv
    rcases hv with rfl | rfl <;> simp [generate, HasImpl]
  | number double a => simp [generate, HasImpl, numberImpl, Range.C18_number_closed_partial]
  | int signed w a =>
    simp only [generate, intImpl, Option.isSome_map, HasImpl]
    cases signed with
    | true => simp [Range.C18_signed_closed_partial]
    | false =>
      rw [← not_iff_not, Bool.not_eq_true, Option.isSome_eq_false_iff, Option.isNone_iff_eq_none, Range.C18_unsigned_closed_iff_partial, not_not]
      have hr := (Attr.C53_range (M.env (intTy false (IntV.bits M.ptr w))) m a).2 ⟨ps, hg, ho.2⟩
      have hb := AttrBounds.range_fits _ false (IntV.bits M.ptr w) rfl m a hr
      rw [hptr]
      constructor
      · rintro ⟨b, e, h1, h2, h3⟩
        obtain ⟨x, hx⟩ := Option.isSome_iff_exists.1 h1
        obtain ⟨y, hy⟩ := Option.isSome_iff_exists.1 h2
        exact ⟨b, x, y, rfl, e, hx, hy, (rangeEqual_iff _ b x y hx hy ((hb b (.inr e)).2 y hy)).not.1 (by simp [h3])⟩
      · rintro ⟨b, x, y, -, e, hx, hy, h3⟩
        exact ⟨b, e, by simp [hx], by simp [hy], by simpa using (rangeEqual_iff _ b x y hx hy ((hb b (.inr e)).2 y hy)).not.2 h3⟩
  | _ => simp [generate, HasImpl]

/-! ### The hypotheses are met -/

/-- Libraries: names of letters, digits, `-` and `.`, no URLs, no phone numbers; a regular expression that matches everything. -/
def libs : Libs Int Nat Unit Unit Unit Unit where
  idna := Verif.Domain.ldh
  url := ⟨fun _ => none, fun _ => none⟩
  phone := ⟨fun _ _ => none, fun _ => none, fun _ => false⟩
  isMatch _ _ := true
  lib _ _ := .error ()
  f32 _ := none
  f64 _ := none
  bit _ := none
  byte _ _ := none
  checked := false
  ptr := .p64

example : Spec.Url.HostsPresent libs.url := nofun

/-- `#[validator(email(comment(Disallow), ip(Must)))] struct S { local_part, need_quoted, domain_part }`. -/
example : ∃ p, derive Derive.full ⟨[Derive.attr (.list (some "email") (.metas [.list (some "comment") (.word "Disallow"),
      .list (some "ip") (.word "Must")]))], .struct (.named [("local_part", "String"), ("need_quoted", "bool"), ("domain_part", "Host")])⟩ = .ok p ∧
    ∃ I, generate libs p = some I ∧ I.parseStr "a@[127.0.0.1]".toList = .ok (.email ⟨ascii "a", false, .ipv4 ⟨127, 0, 0, 1⟩, none, none, none, none, none⟩) ∧
      I.parseStr "a@b.com".toList = .err (.email .ipMust) := ⟨_, rfl, _, rfl, by decide +kernel, by decide +kernel⟩

/-- `#[validator(uuid(case(Lower)))] struct S(u128);`. -/
example : ∃ p, derive Derive.full ⟨[Derive.attr (.list (some "uuid") (.metas [.list (some "case") (.word "Lower")]))], .struct (.unnamed ["u128"])⟩ =
      .ok p ∧ HasImpl p ∧ ∃ I, generate libs p = some I ∧
        I.parseStr "936da01f-9abd-4d9d-80c7-02af85c822a8".toList = .ok (.hex 0x936da01f9abd4d9d80c702af85c822a8) ∧
        I.validateStr "936da01F-9abd-4d9d-80c7-02af85c822a8".toList = .err (.hex .invalid) := by
  exact ⟨_, rfl, trivial, _, rfl, by decide +kernel, by decide +kernel⟩

/-- Two maps with the same entries are the same value, and two numbers are not. -/
example : Same (φ := Int) (U := Unit) (V := Unit) (.phone (.numbers [(1, 5), (2, 7)])) (.phone (.numbers [(2, 7), (1, 5)])) ∧
    ¬ Same (φ := Int) (κ := Nat) (U := Unit) (V := Unit) (.phone (.number 5)) (.phone (.number 7)) :=
  ⟨List.Perm.swap .., nofun⟩

/-- `line(char_length(max = 5))`, and a plan with the largest maximum. -/
example : ¬ LargestMax (φ := Int) (κ := Nat) libs.ptr (.utf8 .line ⟨some (false, ⟨none, none, some 5⟩), ⟨true, true⟩, ⟨true, true⟩⟩) ∧
    LargestMax (φ := Int) (κ := Nat) libs.ptr (.utf8 .line ⟨some (false, ⟨none, none, some 18446744073709551615⟩), ⟨true, true⟩, ⟨true, true⟩⟩) := by
  refine ⟨?_, _, _, rfl, rfl, by decide⟩
  rintro ⟨l, m, h1, h2, h3⟩
  cases h1
  cases h2
  revert h3
  decide

/-- `#[validator(unsigned_integer(range(Outside(3..=5))))] struct S(u8);` does not compile. -/
example : ∃ p, derive Derive.full ⟨[Derive.attr (.list (some "unsigned_integer") (.metas [.list (some "range") (.one (.list (some "Outside")
      (.range ⟨some (some (.int (ascii "3"))), some (some (.int (ascii "5"))), false⟩)))]))], .struct (.unnamed ["u8"])⟩ = .ok p ∧
    ¬ HasImpl p ∧ (generate libs p).isSome = false :=
  ⟨_, rfl, fun h => h ⟨_, 3, 5, rfl, rfl, rfl, rfl, by decide⟩, rfl⟩

end Verif.Props.Generated
