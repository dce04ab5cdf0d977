import Verif.Proof.Errors

/-!
# C74: what the errors say
-/

namespace Verif.Props.Errors

open Verif Verif.Attr Verif.Derive Verif.Generated Verif.Errors Verif.Spec.Generated Verif.Spec.Errors
open Verif.BaseN (strBytes)
open Verif.Range (Bounds RangeOption)

variable {τ φ κ N U V ε : Type}

/-- C74: the texts of this crate are different for different errors of a validator. -/
theorem C74_distinct (v : Validator) (e e' : Error ε) (w : String) (h : errorText v e = some (.words w)) (h' : errorText v e' = some (.words w)) :
    e = e' := by
  have base (n : String) (hn : n ∈ ["Base32", "Base64", "Base64-url"]) : ∀ a b, baseText n a = some (.words w) → baseText n b = some (.words w) → a = b := by
    simp only [List.mem_cons, List.not_mem_nil, or_false] at hn
    rcases hn with rfl | rfl | rfl <;> rintro (_ | _ | _ | _) b ⟨⟩ <;> cases b <;> first | (intro; rfl) | decide
  have decoded (n : String) (hn : n ∈ ["Base32", "Base64", "Base64-url"]) : ∀ a b, decodedText n a = some (.words w) → decodedText n b = some (.words w) → a = b := by
    simp only [List.mem_cons, List.not_mem_nil, or_false] at hn
    rcases hn with rfl | rfl | rfl <;> rintro (_ | _ | _ | _) b ⟨⟩ <;> cases b <;> first | (intro; rfl) | decide
  have size (n : String) (hn : n ∈ ["bit", "byte"]) : ∀ a b, sizeText n a = some (.words w) → sizeText n b = some (.words w) → a = b := by
    simp only [List.mem_cons, List.not_mem_nil, or_false] at hn
    rcases hn with rfl | rfl <;> rintro (_ | (_ | _ | _)) (_ | (_ | _ | _)) ⟨⟩ <;> first | (intro; rfl) | decide
  have domain : ∀ a b, domainText a = .words w → domainText b = .words w → a = b := by
    rintro (_ | _ | _ | _ | _ | _ | _ | _ | _) b ⟨⟩ <;> cases b <;> first | (intro; rfl) | decide
  have email : ∀ a b, emailText a = .words w → emailText b = .words w → a = b := by
    rintro (_ | _ | _ | _ | _ | _ | _ | _) b ⟨⟩ <;> cases b <;> first | (intro; rfl) | decide
  have host : ∀ a b, hostText a = .words w → hostText b = .words w → a = b := by
    rintro (_ | _ | _ | _ | _ | _ | _) b ⟨⟩ <;> cases b <;> first | (intro; rfl) | decide
  have url (n : String) (hn : n ∈ ["`http` or `https`", "`http`, `https` or `ftp`"]) : ∀ a b, urlText n a = .words w → urlText n b = .words w → a = b := by
    simp only [List.mem_cons, List.not_mem_nil, or_false] at hn
    rcases hn with rfl | rfl <;> rintro (_ | _ | _ | _) b ⟨⟩ <;> cases b <;> first | (intro; rfl) | decide
  have ip (n : String) (hn : n ∈ ["IP", "IPv4", "IPv6"]) : ∀ a b, ipText n a = .words w → ipText n b = .words w → a = b := by
    simp only [List.mem_cons, List.not_mem_nil, or_false] at hn
    rcases hn with rfl | rfl | rfl <;> rintro (_ | _ | _ | _ | _) b ⟨⟩ <;> cases b <;> first | (intro; rfl) | decide
  have line (n : String) (hn : n ∈ ["line", "text"]) : ∀ a b, lineText n a = .words w → lineText n b = .words w → a = b := by
    simp only [List.mem_cons, List.not_mem_nil, or_false] at hn
    rcases hn with rfl | rfl <;> rintro (_ | _ | _) b ⟨⟩ <;> cases b <;> first | (intro; rfl) | decide
  have hex (n : String) (hn : n ∈ ["mac address", "uuid"]) : ∀ a b, hexText n a = .words w → hexText n b = .words w → a = b := by
    simp only [List.mem_cons, List.not_mem_nil, or_false] at hn
    rcases hn with rfl | rfl <;> rintro (_ | _ | _) b ⟨⟩ <;> cases b <;> first | (intro; rfl) | decide
  have number : ∀ a b, numberText a = .words w → numberText b = .words w → a = b := by
    rintro (_ | (_ | _ | _) | _ | _) (_ | (_ | _ | _) | _ | _) ⟨⟩ <;> first | (intro; rfl) | decide
  have phone : ∀ a b, phoneText a = .words w → phoneText b = .words w → a = b := by
    rintro (_ | _) b ⟨⟩ <;> cases b <;> first | (intro; rfl) | decide
  have int : ∀ a b, intText a = .words w → intText b = .words w → a = b := by
    rintro (_ | (_ | _ | _)) (_ | (_ | _ | _)) ⟨⟩ <;> first | (intro; rfl) | decide | (rintro ⟨⟩; done)
  cases v <;> cases e <;> simp only [errorText, reduceCtorEq, Option.some.injEq] at h <;> cases e' <;>
    simp only [errorText, reduceCtorEq, Option.some.injEq] at h' <;> first | rfl | congr 1
  all_goals first
    | exact base _ (by decide) _ _ h h'
    | exact decoded _ (by decide) _ _ h h'
    | exact size _ (by decide) _ _ h h'
    | exact domain _ _ h h'
    | exact email _ _ h h'
    | exact host _ _ h h'
    | exact url _ (by decide) _ _ h h'
    | exact ip _ (by decide) _ _ h h'
    | exact line _ (by decide) _ _ h h'
    | exact hex _ (by decide) _ _ h h'
    | exact number _ _ h h'
    | exact phone _ _ h h'
    | exact int _ _ h h'

/-- C74: the response to a refused request is a client error whose body is the text, and from a text of this crate one can tell which
error it was. -/
theorem C74_response (v : Validator) (e : Error ε) (r : Response) (h : response v e = some r) :
    r.status = 400 ∧ errorText v e = some r.body ∧ ∀ e' w, response v e' = some r → r.body = .words w → e' = e := by
  simp only [response, Option.map_eq_some_iff] at h
  obtain ⟨t, ht, rfl⟩ := h
  refine ⟨rfl, ht, fun e' w h' hw => ?_⟩
  simp only [response, Option.map_eq_some_iff, Response.mk.injEq, true_and, exists_eq_right] at h'
  subst hw
  exact C74_distinct v e' e w h' ht

/-- C74: an error that holds the error of a library shows what that says, every other error shows words of this crate. -/
theorem C74_whose_words (v : Validator) (e : Error ε) (t : Text) (h : errorText v e = some t) : t = .library ↔ HoldsLibraryError e := by
  constructor
  · rintro rfl
    cases v <;> cases e <;> simp only [errorText, reduceCtorEq, Option.some.injEq] at h
    all_goals first
      | exact .lib _
      | (rename_i x; cases x <;> first | (cases h; done) | exact .size | exact .url | exact .number | exact .phone | exact .int _ | (rename_i y; cases y <;> cases h))
  · rintro (_ | _ | _ | _ | x | x) <;> cases v <;> simp only [errorText, reduceCtorEq, Option.some.injEq] at h <;>
      first | exact h.symm | (cases h; rfl)

/-- C74, `length`: the text says which bound the length of the collection is beyond. -/
theorem C74_length {α : Type} (len : α → Nat) (min max : Option Nat) (chk : Nat → Out Range.RangeError Unit)
    (h : Range.compileLength (Range.lengthCode min max) = some chk) (ha : Verif.Length.accepts min max = true) (x : α) (e : Range.RangeError)
    (he : Verif.Length.parseCollection chk len x = .err e ∨ Verif.Length.validateCollection chk len x = .err e) :
    lengthText e = some (.words "collection is too large") ∧ (∃ m, max = some m ∧ m < len x) ∨
    lengthText e = some (.words "collection is too small") ∧ ∃ m, min = some m ∧ len x < m := by
  obtain ⟨h0, h1, h2, h3, h4⟩ := Range.C21_length len min max chk h ha x
  rw [h4, void_err, or_self] at he
  cases e with
  | tooSmall => exact .inr ⟨rfl, h1.1 he⟩
  | tooLarge => exact .inl ⟨rfl, h2.1 he⟩
  | forbidden =>
    exfalso
    have hok := (h0 x).2 ⟨rfl, fun m hm => ?_, fun m hm => ?_⟩
    · rw [hok] at he
      cases he
    · by_contra hc
      rw [h1.2 ⟨m, hm, by omega⟩] at he
      cases he
    · by_contra hc
      rw [h2.2 ⟨m, hm, by omega⟩] at he
      cases he

variable [LinearOrder φ] [DecidableEq κ]

/-- C74: whatever string a derived validator refuses, the error it returns is a variant of the error type of the validator, and its
text, if it is one of this crate, says something true: the attribute asks for what the text asks for, and the value is where the
text says. Missing: the largest maximum of characters, see C73. -/
theorem C74_true_partial (M : Macro τ φ κ) (ast : Input τ) (v : Validator) (p : Plan φ κ) (hw : Written M ast v p) (L : Libs φ κ N U V ε)
    (hu : Spec.Url.HostsPresent L.url) (I : Impl (Error ε) (Value φ κ N U V)) (hI : generate L p = some I) (hm : ¬ LargestMax L.ptr p) (s : List Char)
    (e : Error ε) (he : I.parseStr s = .err e ∨ I.parseString s = .err e ∨ I.validateStr s = .err e) :
    ∃ t, errorText v e = some t ∧ ∀ w, t = .words w → Says L v p s w := by
  obtain ⟨a, m, ps, -, -, -, ho, -⟩ := hw
  obtain ⟨h3, h4⟩ := Generated.C71_entry_points L p I hI s
  have hp := Generated.sizesOk M v ps p ho
  replace he : I.parseStr s = .err e ∨ Decoded p ∧ I.validateStr s = .err e := by
    rcases he with h | h | h
    · exact .inl h
    · rw [h3] at h
      exact .inl h
    · by_cases hd : Decoded p
      · exact .inr ⟨hd, h⟩
      · rw [h4 hd, void_err] at h
        exact .inl h
  clear h3 h4
  cases p with
  | base w a =>
    obtain ⟨rfl, hv, -⟩ := ho
    have text : ∀ (K : BaseN.Kind) (name : String), (∃ vs, ("invalid " ++ name, vs) ∈ subjects ∧ w ∈ vs) → K.spec = notationOf w →
        ∀ x, BaseN.check K.variant a.padding (strBytes s) = .err x → ∃ t, baseText name x = some t ∧ ∀ u, t = .words u → Says L w (.base w a) s u := by
      rintro K name ⟨vs, h1, h2⟩ hK x hx
      rcases base_err K a.padding _ x hx with rfl | ⟨rfl, h3, h4⟩ | ⟨rfl, h3, h4⟩
      · exact ⟨_, rfl, fun u hu => by cases hu; exact .invalid _ vs h1 h2⟩
      · exact ⟨_, rfl, fun u hu => by cases hu; exact .paddingNotFound w a rfl (by simp [padding, h3]) (hK ▸ h4)⟩
      · exact ⟨_, rfl, fun u hu => by cases hu; exact .paddingNotAllowed (by simp [padding, h3]) h4⟩
    have bytes : ∀ (K : BaseN.Kind) (name : String), (∃ vs, ("invalid " ++ name, vs) ∈ subjects ∧ w ∈ vs) → K.spec = notationOf w →
        Decoded (φ := φ) (κ := κ) (.base w a) →
        ∀ x, (BaseN.decodedParse K.encoding a.padding (strBytes s) = .err x ∨ BaseN.check K.variant a.padding (strBytes s) = .err x) →
        ∃ t, decodedText name x = some t ∧ ∀ u, t = .words u → Says L w (.base w a) s u := by
      rintro K name ⟨vs, h1, h2⟩ hK hd x hx
      rcases hx with hx | hx
      · rcases decoded_err K a.padding _ x hx with rfl | ⟨rfl, h3⟩
        · exact ⟨_, rfl, fun u hu => by cases hu; exact .invalid _ vs h1 h2⟩
        · exact ⟨_, rfl, fun u hu => by cases hu; exact .decoded w a rfl hd (hK ▸ h3)⟩
      · rcases base_err K a.padding _ x hx with rfl | ⟨rfl, h3, h4⟩ | ⟨rfl, h3, h4⟩
        · exact ⟨_, rfl, fun u hu => by cases hu; exact .invalid _ vs h1 h2⟩
        · exact ⟨_, rfl, fun u hu => by cases hu; exact .paddingNotFound w a rfl (by simp [padding, h3]) (hK ▸ h4)⟩
        · exact ⟨_, rfl, fun u hu => by cases hu; exact .paddingNotAllowed (by simp [padding, h3]) h4⟩
    simp only [generate] at hI
    split at hI <;> cases hI <;> simp only [textImpl, bytesImpl, make_err, make_validate_err] at he
    · obtain ⟨x, hx, rfl⟩ := he.resolve_right (fun h => by simp [Decoded] at h)
      exact text .base32 "Base32" ⟨_, .head _, by simp⟩ rfl x (text_err .base32 _ _ _ hx)
    · rcases he with ⟨x, hx, rfl⟩ | ⟨-, x, hx, rfl⟩
      · exact bytes .base32 "Base32" ⟨_, .head _, by simp⟩ rfl (by simp [Decoded]) x (.inl hx)
      · exact bytes .base32 "Base32" ⟨_, .head _, by simp⟩ rfl (by simp [Decoded]) x (.inr hx)
    · obtain ⟨x, hx, rfl⟩ := he.resolve_right (fun h => by simp [Decoded] at h)
      exact text .base64 "Base64" ⟨_, .tail _ (.head _), by simp⟩ rfl x (text_err .base64 _ _ _ hx)
    · rcases he with ⟨x, hx, rfl⟩ | ⟨-, x, hx, rfl⟩
      · exact bytes .base64 "Base64" ⟨_, .tail _ (.head _), by simp⟩ rfl (by simp [Decoded]) x (.inl hx)
      · exact bytes .base64 "Base64" ⟨_, .tail _ (.head _), by simp⟩ rfl (by simp [Decoded]) x (.inr hx)
    · obtain ⟨x, hx, rfl⟩ := he.resolve_right (fun h => by simp [Decoded] at h)
      exact text .base64Url "Base64-url" ⟨_, .tail _ (.tail _ (.head _)), by simp⟩ rfl x (text_err .base64Url _ _ _ hx)
    · rcases he with ⟨x, hx, rfl⟩ | ⟨-, x, hx, rfl⟩
      · exact bytes .base64Url "Base64-url" ⟨_, .tail _ (.tail _ (.head _)), by simp⟩ rfl (by simp [Decoded]) x (.inl hx)
      · exact bytes .base64Url "Base64-url" ⟨_, .tail _ (.tail _ (.head _)), by simp⟩ rfl (by simp [Decoded]) x (.inr hx)
  | basic w a =>
    obtain ⟨rfl, hv, -⟩ := ho
    replace he := he.resolve_right (fun h => h.1)
    simp only [generate] at hI
    split at hI <;> cases hI <;> simp only [libImpl, make_err] at he <;> obtain ⟨x, hx, rfl⟩ := he
    · exact ⟨_, rfl, fun u hu => by cases hu; exact .invalid _ _ (by simp [subjects]; rfl) (by simp)⟩
    all_goals exact ⟨_, rfl, fun _ h => by cases h⟩
  | bit a =>
    obtain ⟨rfl, -⟩ := ho
    replace he := he.resolve_right (fun h => h.1)
    simp only [generate, sizeImpl, Option.map_eq_some_iff] at hI
    obtain ⟨chk, hc, rfl⟩ := hI
    obtain ⟨x, hx, rfl⟩ := (make_err ..).1 he
    rcases size_err _ _ hp chk hc _ _ hx with rfl | ⟨n, rfl, h1, h2⟩ | ⟨n, rfl, h1, h2⟩
    · exact ⟨_, rfl, fun _ h => by cases h⟩
    · exact ⟨_, rfl, fun u hu => by cases hu; exact .bitSmall _ n rfl (.bit a n h1) h2⟩
    · exact ⟨_, rfl, fun u hu => by cases hu; exact .bitLarge _ n rfl (.bit a n h1) h2⟩
  | byte a =>
    obtain ⟨rfl, -⟩ := ho
    replace he := he.resolve_right (fun h => h.1)
    simp only [generate, sizeImpl, Option.map_eq_some_iff] at hI
    obtain ⟨chk, hc, rfl⟩ := hI
    obtain ⟨x, hx, rfl⟩ := (make_err ..).1 he
    rcases size_err _ _ hp chk hc _ _ hx with rfl | ⟨n, rfl, h1, h2⟩ | ⟨n, rfl, h1, h2⟩
    · exact ⟨_, rfl, fun _ h => by cases h⟩
    · exact ⟨_, rfl, fun u hu => by cases hu; exact .byteSmall _ n rfl (.byte a n h1) h2⟩
    · exact ⟨_, rfl, fun u hu => by cases hu; exact .byteLarge _ n rfl (.byte a n h1) h2⟩
  | domain a =>
    obtain ⟨rfl, -⟩ := ho
    replace he := he.resolve_right (fun h => h.1)
    simp only [generate] at hI
    cases hI
    obtain ⟨x, hx, rfl⟩ := (make_err ..).1 he
    obtain ⟨_, -, h1, h2, h3, h4, h5, h6, h7, h8⟩ := Domain.C39_domain _ _ _ _ hx
    refine ⟨_, rfl, fun u hu => ?_⟩
    cases x <;> cases hu
    · exact .invalid _ _ (by simp [subjects]; rfl) (by simp)
    · exact .useIpv4 (congrArg some (h3 rfl).1)
    · exact .notUseIpv4 (congrArg some (h4 rfl).1)
    · exact .beLocal (congrArg some (h7 rfl).1)
    · exact .notBeLocal (congrArg some (h8 rfl).1)
    · exact .twoLabels (congrArg some (h5 rfl).1)
    · exact .oneLabel (congrArg some (h6 rfl).1)
    · exact .portNotFound (congrArg some (h1 rfl).1)
    · exact .portNotAllowed (congrArg some (h2 rfl).1)
  | email a =>
    obtain ⟨rfl, -⟩ := ho
    replace he := he.resolve_right (fun h => h.1)
    simp only [generate] at hI
    cases hI
    obtain ⟨x, hx, rfl⟩ := (make_err ..).1 he
    have hn := Email.C61_named_option_is_set _ _ _ _ hx
    refine ⟨_, rfl, fun u hu => ?_⟩
    rcases hn with rfl | ⟨rfl, h⟩ | ⟨rfl, h⟩ | ⟨rfl, h⟩ | ⟨rfl, h⟩ | ⟨rfl, h⟩ | ⟨rfl, h⟩ | ⟨rfl, h⟩ <;> cases hu
    · exact .invalid _ _ (by simp [subjects]; rfl) (by simp)
    · exact .useIp (congrArg some h)
    · exact .notUseIp (congrArg some h)
    · exact .beLocal (congrArg some h)
    · exact .notBeLocal (congrArg some h)
    · exact .twoLabels (congrArg some h)
    · exact .oneLabel (congrArg some h)
    · exact .comments (congrArg some h)
  | host a =>
    obtain ⟨rfl, -⟩ := ho
    replace he := he.resolve_right (fun h => h.1)
    simp only [generate] at hI
    cases hI
    obtain ⟨x, hx, rfl⟩ := (make_err ..).1 he
    obtain ⟨h1, h2, h3, h4, h5, h6⟩ := Host.C39_host_partial _ _ _ _ hx
    refine ⟨_, rfl, fun u hu => ?_⟩
    cases x <;> cases hu
    · exact .invalid _ _ (by simp [subjects]; rfl) (by simp)
    · exact .beLocal (congrArg some (h3 rfl).1)
    · exact .notBeLocal (congrArg some (h4 rfl).1)
    · exact .twoLabels (congrArg some (h5 rfl).1)
    · exact .oneLabel (congrArg some (h6 rfl))
    · exact .portNotFound (congrArg some (h1 rfl).1)
    · exact .portNotAllowed (congrArg some (h2 rfl).1)
  | url w a =>
    obtain ⟨rfl, hv, -⟩ := ho
    replace he := he.resolve_right (fun h => h.1)
    simp only [generate] at hI
    split at hI <;> cases hI <;> simp only [make_err] at he <;> obtain ⟨x, hx, rfl⟩ := he
    · obtain ⟨-, h1, -, h3, h4, -⟩ := Url.C46_http L.url hu a.loc (strBytes s)
      rw [(Url.C46_entry_points L.url a.loc (strBytes s)).1] at hx
      refine ⟨_, rfl, fun u hu => ?_⟩
      cases x <;> cases hu
      · refine .http rfl ?_
        have := h1.1 hx
        simp only [List.mem_cons, List.not_mem_nil, or_false, forall_eq_or_imp, forall_eq]
        exact ⟨this false, this true⟩
      · exact .beLocal (congrArg some (h3.1 hx).2.1)
      · exact .notBeLocal (congrArg some (h4.1 hx).2.1)
    · obtain ⟨-, h1, -, h3, h4, -⟩ := Url.C46_http_ftp L.url hu a.loc (strBytes s)
      rw [(Url.C46_entry_points L.url a.loc (strBytes s)).2.2.1] at hx
      refine ⟨_, rfl, fun u hu => ?_⟩
      cases x <;> cases hu
      · refine .httpFtp rfl ?_
        have := h1.1 hx
        simp only [List.mem_cons, List.not_mem_nil, or_false, forall_eq_or_imp, forall_eq]
        exact ⟨this .http, this .https, this .ftp⟩
      · exact .beLocal (congrArg some (h3.1 hx).2.1)
      · exact .notBeLocal (congrArg some (h4.1 hx).2.1)
  | ip w a =>
    obtain ⟨rfl, hv, -⟩ := ho
    replace he := he.resolve_right (fun h => h.1)
    simp only [generate] at hI
    split at hI <;> cases hI <;> simp only [ipImpl, make_err] at he <;> obtain ⟨x, hx, rfl⟩ := he
    · obtain ⟨h1, h2, h3, h4⟩ := Ip.C39_ip _ _ _ _ hx
      refine ⟨_, rfl, fun u hu => ?_⟩
      cases x <;> cases hu
      · exact .invalid _ _ (by simp [subjects]; rfl) (by simp)
      · exact .beLocal (congrArg some (h3 rfl).1)
      · exact .notBeLocal (congrArg some (h4 rfl).1)
      · exact .portNotFound (congrArg some (h1 rfl).1)
      · exact .portNotAllowed (congrArg some (h2 rfl))
    · obtain ⟨h1, h2, h3, h4⟩ := Ip.C39_ipv4 _ _ _ _ hx
      refine ⟨_, rfl, fun u hu => ?_⟩
      cases x <;> cases hu
      · exact .invalid _ _ (by simp [subjects]; rfl) (by simp)
      · exact .beLocal (congrArg some (h3 rfl).1)
      · exact .notBeLocal (congrArg some (h4 rfl).1)
      · exact .portNotFound (congrArg some (h1 rfl).1)
      · exact .portNotAllowed (congrArg some (h2 rfl).1)
    · obtain ⟨h1, h2, h3, h4⟩ := Ip.C39_ipv6 _ _ _ _ hx
      refine ⟨_, rfl, fun u hu => ?_⟩
      cases x <;> cases hu
      · exact .invalid _ _ (by simp [subjects]; rfl) (by simp)
      · exact .beLocal (congrArg some (h3 rfl).1)
      · exact .notBeLocal (congrArg some (h4 rfl).1)
      · exact .portNotFound (congrArg some (h1 rfl).1)
      · exact .portNotAllowed (congrArg some (h2 rfl).1)
  | length a => simp [generate] at hI
  | utf8 w a =>
    obtain ⟨rfl, hv, -⟩ := ho
    replace he := he.resolve_right (fun h => h.1)
    simp only [generate] at hI
    split at hI <;> cases hI
    · rcases line_err L _ _ a hm hp s e he with rfl | ⟨b, l, hl, ⟨rfl, n, h1, h2⟩ | ⟨rfl, h1, h2⟩⟩ <;>
        refine ⟨_, rfl, fun u hu => ?_⟩ <;> cases hu
      · exact .invalid _ _ (by simp [subjects]; rfl) (by simp)
      · exact .lineLong _ l n rfl (.utf8 _ a b l hl) h1 h2
      · exact .lineShort _ l rfl (.utf8 _ a b l hl) h1 (fun h => h2 (h b l hl))
    · rcases line_err L _ _ a hm hp s e he with rfl | ⟨b, l, hl, ⟨rfl, n, h1, h2⟩ | ⟨rfl, h1, h2⟩⟩ <;>
        refine ⟨_, rfl, fun u hu => ?_⟩ <;> cases hu
      · exact .invalid _ _ (by simp [subjects]; rfl) (by simp)
      · exact .textLong _ l n rfl (.utf8 _ a b l hl) h1 h2
      · exact .textShort _ l rfl (.utf8 _ a b l hl) h1 (fun h => h2 (h b l hl))
  | hex w a =>
    obtain ⟨rfl, hv, -⟩ := ho
    replace he := he.resolve_right (fun h => h.1)
    simp only [generate] at hI
    split at hI <;> cases hI <;> simp only [make_err] at he <;> obtain ⟨x, hx, rfl⟩ := he
    · refine ⟨_, rfl, fun u hu => ?_⟩
      cases x <;> cases hu
      · exact .invalid _ _ (by simp [subjects]; rfl) (by simp)
      · obtain ⟨⟨b, h⟩, -⟩ := (Hex.C56_separator_must _ _ _).2.1 hx
        exact .separatorsNotFound b (congrArg some h)
      · exact .separatorsNotAllowed (congrArg some ((Hex.C56_separator_disallow _ _ _).2.1 hx).1)
    · refine ⟨_, rfl, fun u hu => ?_⟩
      cases x <;> cases hu
      · exact .invalid _ _ (by simp [subjects]; rfl) (by simp)
      · obtain ⟨⟨b, h⟩, -⟩ := (Hex.C56_separator_must _ _ _).1.1 hx
        exact .separatorsNotFound b (congrArg some h)
      · exact .separatorsNotAllowed (congrArg some ((Hex.C56_separator_disallow _ _ _).1.1 hx).1)
  | number double a =>
    obtain ⟨rfl, -⟩ := ho
    replace he := he.resolve_right (fun h => h.1)
    simp only [generate, numberImpl, Option.map_eq_some_iff] at hI
    obtain ⟨chk, hc, rfl⟩ := hI
    obtain ⟨x, hx, rfl⟩ := (make_err ..).1 he
    have read : ∀ f, (if double then L.f64 else L.f32) (strBytes s) = some f → ReadsFloat L s (.number double a) f := by
      cases double with
      | true => exact fun f h => .f64 a f h
      | false => exact fun f h => .f32 a f h
    rcases number_err _ _ _ chk hc _ _ hx with rfl | ⟨rfl, h1, h2⟩ | ⟨y, h1, ⟨rfl, h2⟩ | ⟨b, rfl, h2, h3⟩ | ⟨b, rfl, h2, h3⟩ | ⟨b, rfl, h2, h3⟩⟩ <;>
      refine ⟨_, rfl, fun u hu => ?_⟩ <;> cases hu
    · exact .notBeNaN (congrArg some h1) (read _ h2)
    · exact .beNaN y (congrArg some h2) (read _ h1)
    · exact .numberSmall b double a y rfl h2 (read _ h1) h3
    · exact .numberLarge b double a y rfl h2 (read _ h1) h3
    · exact .numberForbidden b double a y rfl h2 (read _ h1) h3
  | phone a =>
    obtain ⟨rfl, -⟩ := ho
    replace he := he.resolve_right (fun h => h.1)
    simp only [generate] at hI
    cases hI
    obtain ⟨x, hx, rfl⟩ := (make_err ..).1 he
    refine ⟨_, rfl, fun u hu => ?_⟩
    cases x <;> cases hu
    exact .invalid _ _ (by simp [subjects]; rfl) (by simp)
  | regex a =>
    obtain ⟨rfl, -⟩ := ho
    replace he := he.resolve_right (fun h => h.1)
    simp only [generate] at hI
    cases hI
    obtain ⟨x, hx, rfl⟩ := (make_err ..).1 he
    refine ⟨_, rfl, fun u hu => ?_⟩
    cases hu
    exact .invalid _ _ (by simp [subjects]; rfl) (by simp)
  | int signed w a =>
    obtain ⟨rfl, -⟩ := ho
    replace he := he.resolve_right (fun h => h.1)
    simp only [generate, intImpl, Option.map_eq_some_iff] at hI
    obtain ⟨chk, hc, rfl⟩ := hI
    obtain ⟨x, hx, rfl⟩ := (make_err ..).1 he
    have key : errorText (if signed = true then .signed_integer else .unsigned_integer) (Error.int x : Error ε) = some (intText x) := by
      cases signed <;> rfl
    refine ⟨_, key, fun u hu => ?_⟩
    cases x with
    | parseInt e => cases hu
    | range e =>
      obtain ⟨i, h1, h2, ⟨b, rfl, h3, h4⟩ | ⟨b, rfl, h3, h4⟩ | ⟨b, rfl, h3, h4⟩⟩ := int_err L.ptr signed w _ chk hc _ e hx <;> cases hu
      · exact .integerSmall b i (h3 ▸ .int signed w a i h1 h2) h4
      · exact .integerLarge b i (h3 ▸ .int signed w a i h1 h2) h4
      · exact .integerForbidden b i (h3 ▸ .int signed w a i h1 h2) h4

/-- C74 inherits C73: `#[validator(line(char_length(min = 1, max = 18446744073709551615)))] struct S(String);` in a program without
overflow checks says that `"a"` is too short. -/
theorem C74_violated : ∃ p, derive Derive.full ⟨[Derive.attr (.list (some "line") (.metas [.list (some "char_length")
        (.metas [.nameValue (some "min") (.lit (.int (ascii "1"))), .nameValue (some "max") (.lit (.int (ascii "18446744073709551615")))])]))],
      .struct (.unnamed ["String"])⟩ = .ok p ∧
    ∃ I, generate Generated.libs p = some I ∧ ∃ e, I.parseStr ['a'] = .err e ∧ errorText .line e = some (.words "line is too short") ∧ LengthsOk p ['a'] := by
  refine ⟨.utf8 .line ⟨some (false, ⟨some 1, none, some 18446744073709551615⟩), ⟨true, true⟩, ⟨true, true⟩⟩, rfl, _, rfl,
    .line .tooShort, by decide +kernel, by decide +kernel, ?_⟩
  rintro b l ⟨⟩
  refine ⟨⟨?_, ?_⟩, nofun⟩ <;> rintro m ⟨⟩ <;> decide

/-! ### The hypotheses are met -/

/-- `#[validator(domain(port(Must)))] struct S { domain, port }` refuses `example.com`, with the status 400. -/
example : ∃ p, derive Derive.full ⟨[Derive.attr (.list (some "domain") (.metas [.list (some "port") (.word "Must")]))],
      .struct (.named [("domain", "String"), ("port", "u16")])⟩ = .ok p ∧ ¬ LargestMax Generated.libs.ptr p ∧
    ∃ I, generate Generated.libs p = some I ∧ ∃ e, I.parseStr "example.com".toList = .err e ∧ response .domain e = some ⟨400, .words "port not found"⟩ :=
  ⟨_, rfl, nofun, _, rfl, .domain .portMust, by decide +kernel, by decide +kernel⟩

example : HoldsLibraryError (.phone .failure : Error String) ∧ ¬ HoldsLibraryError (.phone .invalid : Error String) ∧
    errorText .phone (.phone .invalid : Error String) = some (.words "invalid phone number") ∧
    errorText .phone (.phone .failure : Error String) = some .library := ⟨.phone, nofun, rfl, rfl⟩

/-- `#[validator(line(char_length(max = 5)))] struct S(String);` -/
example : ∃ p, derive Derive.full ⟨[Derive.attr (.list (some "line") (.metas [.list (some "char_length") (.metas [.nameValue (some "max") (.lit (.int (ascii "5")))])]))],
      .struct (.unnamed ["String"])⟩ = .ok p ∧
    ∃ I, generate Generated.libs p = some I ∧ ∃ e, I.validateStr "abcdef".toList = .err e ∧ errorText .line e = some (.words "line is too long") :=
  ⟨_, rfl, _, rfl, .line .tooLong, by decide +kernel, by decide +kernel⟩

end Verif.Props.Errors
