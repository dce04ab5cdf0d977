import Verif.Proof.SerdeBack
import Verif.Props.Serde
import Verif.Props.Hex
import Verif.Props.Domain
import Verif.Props.Host
import Verif.Props.Email
import Verif.Props.Url

/-!
# C50: reading back what was written
-/

namespace Verif.Props.SerdeBack

open Verif Verif.Serde Verif.Spec.Serde Verif.Spec.IntV
open Verif.BaseN (strBytes)
open Verif.Props.BaseN (Kind)
open Verif.Props.Serde
open Verif.Spec.Email (comment)
open Verif.Email (showHost)

variable {F G : Type} (widen : G → F)

/-! ## Validators that keep the text -/

theorem C50_base (K : Kind) (pad : TriAllow) (fmt : Format F G) (keeps : KeepsText fmt) (b v : List UInt8)
    (hv : BaseN.parseU8Slice K.variant pad b = .ok v) (t : Token F G) (ht : WritesText v t) :
    ReadsBack (baseDe widen K.variant pad) fmt t v := by
  obtain ⟨s, rfl, hs⟩ := ht
  refine (C49_base widen K pad _ _).2 (reply_of_data (keeps s .any (by decide)) ?_)
  have he : v = b := by
    unfold BaseN.parseU8Slice at hv
    cases hc : BaseN.check K.variant pad b <;> simp [hc] at hv
    exact hv.symm
  have := (Props.BaseN.C03_entry_points_agree K pad s v hs.symm).2.2.1
  simp only [textsOrBytes, this]
  rw [he] at hv ⊢
  rw [hv]

theorem C50_line (k : Line.Kind) (b : Bool) (min tmin max : Option Nat) (fmt : Format F G) (keeps : KeepsText fmt) (s v : List Char)
    (hv : Line.parseStr k b min tmin max s = .ok v) : ReadsBack (lineDe widen k b min tmin max) fmt (.str v) v := by
  refine text_back (by decide) (fun d => (C49_strings widen d).2.1 k b min tmin max) fmt keeps v v ?_
  have : v = s := by
    unfold Line.parseStr at hv
    cases hc : Line.check k b min tmin max s <;> simp [hc] at hv
    exact hv.symm
  rw [this] at hv ⊢
  exact hv

theorem C50_regex (isMatch : List UInt8 → Bool) (fmt : Format F G) (keeps : KeepsText fmt) (s v : List UInt8)
    (hv : Regex.parseStr isMatch s = .ok v) (t : Token F G) (ht : WritesText v t) : ReadsBack (regexDe widen isMatch) fmt t v := by
  obtain ⟨cs, rfl, hs⟩ := ht
  refine text_back (by decide) (fun d => (C49_strings widen d).2.2 isMatch) fmt keeps cs v ?_
  have h := ((Props.Wrapper.C48_regex isMatch s).2.1 v).1 hv
  rw [((Props.Wrapper.C48_regex isMatch (strBytes cs)).2.1 v), hs]
  exact ⟨h.2 ▸ h.1, rfl⟩

/-! ## Addresses and names -/

theorem C50_ip (loc port : TriAllow) (fmt : Format F G) (keeps : KeepsText fmt) (cs : List Char) (t : Token F G) :
    (∀ v, Ip.parseStr Ip.parseIpv4 loc port (strBytes cs) = .ok v → WritesText (Ip.uriV4 v) t → ReadsBack (ipv4De widen loc port) fmt t v) ∧
    (∀ v, Ip.parseStr Ip.parseIpv6 loc port (strBytes cs) = .ok v → WritesText (Ip.uriV6 v) t → ReadsBack (ipv6De widen loc port) fmt t v) ∧
    (∀ v, Ip.parseStr Ip.parseIp loc port (strBytes cs) = .ok v → WritesText (Ip.uriIp v) t → ReadsBack (ipDe widen loc port) fmt t v) := by
  refine ⟨?_, ?_, ?_⟩
  · rintro v hv ⟨s, rfl, hs⟩
    exact text_back (by decide) (fun d => (C49_texts widen d).2.2.1 loc port) fmt keeps s v (hs ▸ Props.Ip.C31_ipv4 loc port cs v hv)
  · rintro v hv ⟨s, rfl, hs⟩
    exact text_back (by decide) (fun d => (C49_texts widen d).2.2.2.1 loc port) fmt keeps s v (hs ▸ Props.Ip.C31_ipv6 loc port cs v hv)
  · rintro v hv ⟨s, rfl, hs⟩
    exact text_back (by decide) (fun d => (C49_texts widen d).2.2.2.2.1 loc port) fmt keeps s v (hs ▸ Props.Ip.C31_ip loc port cs v hv)

/-- `uuid` and `mac_address` without separators. Missing: separators, for which it is false. -/
theorem C50_uuid_mac_partial (case : CaseOption) (fmt : Format F G) (keeps : KeepsText fmt) (n : Nat) (t : Token F G) :
    (n < 2 ^ 128 → WritesText (Uuid.toUuidString .disallow case n) t → ReadsBack (uuidDe widen .disallow case) fmt t n) ∧
    (n < 2 ^ 48 → WritesText (Mac.toMacAddressString .disallow case n) t → ReadsBack (macDe widen .disallow case) fmt t n) := by
  refine ⟨?_, ?_⟩
  · rintro hn ⟨s, rfl, hs⟩
    exact text_back (by decide) (fun d => (C49_texts widen d).1 .disallow case) fmt keeps s n (hs ▸ Props.Hex.C10_uuid_round_trip_partial case n hn)
  · rintro hn ⟨s, rfl, hs⟩
    exact text_back (by decide) (fun d => (C49_texts widen d).2.1 .disallow case) fmt keeps s n (hs ▸ Props.Hex.C13_mac_round_trip_partial case n hn)

/-- C50 is violated by every `uuid` and `mac_address` with a separator: no value can be read back. -/
theorem C50_separator_violated (sep : SeparatorOption) (hsep : sep ≠ .disallow) (case : CaseOption) (fmt : Format F G) (keeps : KeepsText fmt)
    (n m : Nat) (t : Token F G) :
    (WritesText (Uuid.toUuidString sep case n) t → ¬ ReadsBack (uuidDe widen sep case) fmt t m) ∧
    (WritesText (Mac.toMacAddressString sep case n) t → ¬ ReadsBack (macDe widen sep case) fmt t m) := by
  refine ⟨?_, ?_⟩
  · rintro ⟨s, rfl, hs⟩ h
    obtain ⟨e, h1, h2⟩ := reply_ok.1 (((C49_texts widen _).1 sep case _).1 h)
    obtain ⟨e', h3, h4⟩ := keeps s .str (by decide)
    have he : e = e' := by
      have : fmt.feed (.str s) .str = some e := h1
      rw [h3] at this
      exact (Option.some.inj this).symm
    rw [he, h4] at h2
    refine Props.Hex.C10_uuid_separator_never_round_trips sep hsep case n ⟨m, ?_⟩
    rw [← hs]
    exact Option.some.inj h2
  · rintro ⟨s, rfl, hs⟩ h
    obtain ⟨e, h1, h2⟩ := reply_ok.1 (((C49_texts widen _).2.1 sep case _).1 h)
    obtain ⟨e', h3, h4⟩ := keeps s .str (by decide)
    have he : e = e' := by
      have : fmt.feed (.str s) .str = some e := h1
      rw [h3] at this
      exact (Option.some.inj this).symm
    rw [he, h4] at h2
    refine Props.Hex.C13_mac_separator_never_round_trips sep hsep case n ⟨m, ?_⟩
    rw [← hs]
    exact Option.some.inj h2

/-- `domain` when no option restricts it: the same domain up to a final dot. Missing: the other options, for which IPv4
addresses with a port are not read back (`C35_violated`). -/
theorem C50_domain_partial (o : Domain.Opts) (ho : Spec.Domain.Plain o) (idna : Domain.Idna) (laws : Spec.Domain.IdnaLaws idna) (cs : List Char)
    (v : Domain.Value) (hv : Domain.parseStr o idna (strBytes cs) = .ok v) (fmt : Format F G) (keeps : KeepsText fmt) (t : Token F G)
    (ht : WritesDomain v t) :
    ∃ w, ReadsBack (domDe widen o idna) fmt t w ∧ Spec.Domain.Stem v.domain w.domain ∧ w.port = v.port ∧ w.isIpv4 = v.isIpv4 ∧ w.isLocal = v.isLocal := by
  obtain ⟨text, h1, s, rfl, hs⟩ := ht
  obtain ⟨_, u, w, h2, h3, h4⟩ := Props.Domain.C35_plain o ho idna laws cs v hv
  rw [h1] at h2
  cases h2
  exact ⟨w, text_back (by decide) (fun d => (C49_strings widen d).1 o idna) fmt keeps s w (hs ▸ h3), h4⟩

/-- `host`: addresses, and names unless they end with a dot or are converted to the text of an IPv4 address. -/
theorem C50_host_partial (o : Host.Opts) (idna : Domain.Idna) (laws : Spec.Domain.IdnaLaws idna) (cs : List Char) (v : Host.Value)
    (hv : Host.parseStr o idna (strBytes cs) = .ok v)
    (hn : ∀ a, v.host = .domain a → (¬ ∃ c, a = c ++ ascii ".") ∧ ∀ x : StdIp.V4, a ≠ x.text)
    (fmt : Format F G) (keeps : KeepsText fmt) (t : Token F G) (ht : WritesText (Host.toUri v) t) :
    ReadsBack (hostDe widen o idna) fmt t v := by
  obtain ⟨s, rfl, hs⟩ := ht
  refine text_back (by decide) (fun d => (C49_texts widen d).2.2.2.2.2.1 o idna) fmt keeps s v ?_
  rw [hs]
  cases hh : v.host with
  | domain a =>
    exact Props.Host.C38_name_partial o idna laws cs v a hv hh (hn a hh).1 (hn a hh).2
  | ipv4 x => exact Props.Host.C38_address o idna cs v hv (by rw [hh]; intro a; simp)
  | ipv6 x => exact Props.Host.C38_address o idna cs v hv (by rw [hh]; intro a; simp)

/-- `email`, under the conditions of `C44_round_trip_partial`: no quoted local part unless comments are allowed, no domain with
a final dot, and the printed address within the limits of length. -/
theorem C50_email_partial (o : Email.Opts) (idna : Domain.Idna) (laws : Spec.Domain.IdnaLaws idna) (cs : List Char) (v : Email.Value)
    (hv : Email.parseStr o idna (strBytes cs) = .ok v) (ho : o.comment = .allow ∨ v.needQuoted = false)
    (hdot : ∀ a, v.host = .domain a → ¬ ∃ c, a = c ++ ascii ".")
    (hleft : v.needQuoted = true ∨ (comment v.comment1 ++ v.text ++ comment v.comment2).length ≤ 64)
    (hright : (comment v.comment3 ++ showHost v.host ++ comment v.comment4).length ≤ 255) (htotal : (Email.toEmail o v).length ≤ 320)
    (fmt : Format F G) (keeps : KeepsText fmt) (t : Token F G) (ht : WritesText (Email.toEmail o v) t) :
    ReadsBack (emailDe widen o idna) fmt t v := by
  obtain ⟨s, rfl, hs⟩ := ht
  exact text_back (by decide) (fun d => (C49_texts widen d).2.2.2.2.2.2.1 o idna) fmt keeps s v
    (hs ▸ Props.Email.C44_round_trip_partial o idna laws cs v hv ho hdot hleft hright htotal)

/-- What is asked of the URL library: a URL printed is read as the same URL, and its scheme is that of the text it came
from. -/
structure UrlLaws {U : Type} (lib : Url.Lib U) (text : U → List UInt8) : Prop where
  again : ∀ s u, lib.parse s = some u → lib.parse (text u) = some u
  scheme : ∀ p s u, Spec.Url.HasScheme (Spec.Url.schemeOf p) s → lib.parse s = some u → Spec.Url.HasScheme (Spec.Url.schemeOf p) (text u)
  hosts : Spec.Url.HostsPresent lib

theorem C50_url {U : Type} (lib : Url.Lib U) (text : U → List UInt8) (laws : UrlLaws lib text) (loc : TriAllow) (s : List UInt8)
    (fmt : Format F G) (keeps : KeepsText fmt) (t : Token F G) :
    (∀ u b, Url.parseHttpStr lib loc s = .ok (u, b) → WritesText (text u) t → ReadsBack (httpDe widen lib loc) fmt t (u, b)) ∧
    (∀ u p, Url.parseHttpFtpStr lib loc s = .ok (u, p) → WritesText (text u) t → ReadsBack (httpFtpDe widen lib loc) fmt t (u, p)) := by
  refine ⟨?_, ?_⟩
  · rintro u b hv ⟨cs, rfl, hs⟩
    refine text_back (by decide) (fun d => (C49_texts widen d).2.2.2.2.2.2.2.2.1 U lib loc) fmt keeps cs (u, b) ?_
    rw [(Props.Url.C46_entry_points lib loc _).1] at hv ⊢
    obtain ⟨h1, h2, h3⟩ := ((Props.Url.C46_http lib laws.hosts loc s).1 u b).1 hv
    rw [hs]
    refine ((Props.Url.C46_http lib laws.hosts loc _).1 u b).2 ⟨?_, laws.again s u h2, h3⟩
    cases b
    · exact laws.scheme .http s u h1 h2
    · exact laws.scheme .https s u h1 h2
  · rintro u p hv ⟨cs, rfl, hs⟩
    refine text_back (by decide) (fun d => (C49_texts widen d).2.2.2.2.2.2.2.2.2 U lib loc) fmt keeps cs (u, p) ?_
    rw [(Props.Url.C46_entry_points lib loc _).2.2.1] at hv ⊢
    obtain ⟨h1, h2, h3⟩ := ((Props.Url.C46_http_ftp lib laws.hosts loc s).1 u p).1 hv
    rw [hs]
    exact ((Props.Url.C46_http_ftp lib laws.hosts loc _).1 u p).2 ⟨laws.scheme p s u h1 h2, laws.again s u h2, h3⟩

/-- C50 is violated by `phone` with several countries: the map that is written is never read back, in a format that does not
hand a map over as a text. -/
theorem C50_phone_violated {C N : Type} [DecidableEq C] (lib : Phone.Lib C N) (cs : List C) (fmt : Format F G)
    (maps : ∀ hint e, fmt.feed writeNumbers hint = some e → dataOf e = .nothing) (v : Phone.Value C N) :
    ¬ ReadsBack (phoneDe widen lib cs) fmt writeNumbers v := by
  intro h
  obtain ⟨e, h1, h2⟩ := reply_ok.1 (((C49_texts widen _).2.2.2.2.2.2.2.1 C N lib cs _).1 h)
  rw [maps _ e h1] at h2
  cases h2

/-! ## Booleans and numbers -/

theorem C50_boolean (fmt : Format F G) (keeps : KeepsBools fmt) (v : Bool) : ReadsBack (boolDe widen) fmt (writeBool v) v :=
  (C49_boolean widen _ _).2 (reply_of_data (keeps v) rfl)

theorem signed_intTy (signed : Bool) (w : IntV.Width) : IsSigned (intTy signed w) = signed := by
  cases signed <;> cases w <;> rfl

/-- C50: the type with which an integer is written has room for every value of the validated type, on every target. -/
theorem C50_written (ptr : IntV.Ptr) (signed : Bool) (target : IntV.Width) (v : Int) (h : Fits signed (IntV.bits ptr target) v) :
    Written (writeInt (F := F) (G := G) signed target v) := by
  intro ty x e
  simp only [writeInt, Token.int.injEq] at e
  obtain ⟨rfl, rfl⟩ := e
  revert h
  cases signed <;> cases target <;> cases ptr <;>
    simp only [Fits, IntV.bits, intTy, IsSigned, bitsOf, if_true, Bool.false_eq_true, if_false] <;> omega

/-- Integers, in a format that keeps integers with their type. -/
theorem C50_integers (ptr : IntV.Ptr) (target : IntV.Width) (r : Range.RangeOption Int) (chk : Int → Out Range.RangeError Unit)
    (fmt : Format F G) (keeps : KeepsInts fmt) (types : KeepsTypes fmt) (v : Int) :
    (IntV.check ptr true target r = some chk → Fits true (IntV.bits ptr target) v → Spec.Range.Satisfies r v →
      ReadsBack (intDe widen chk ptr target) fmt (writeInt true target v) v) ∧
    (IntV.check ptr false target r = some chk → Fits false (IntV.bits ptr target) v → Spec.Range.Satisfies r v →
      ReadsBack (uintDe widen chk ptr target) fmt (writeInt false target v) v) := by
  have main : ∀ signed, IntV.check ptr signed target r = some chk → Fits signed (IntV.bits ptr target) v → Spec.Range.Satisfies r v →
      textsOrInts (F := F) (G := G) signed (fun s => IntV.parseStr chk signed (IntV.bits ptr target) (strBytes s))
        (fun x => withRangeError (IntV.parseW chk ptr signed target .w128 x)) (.int (intTy signed target) v) = some (.ok v) := by
    intro signed hc hf hs
    simp only [textsOrInts, signed_intTy, if_true]
    have h128 : Fits signed (IntV.bits ptr .w128) v := by
      revert hf
      cases signed <;> cases target <;> cases ptr <;> simp only [Fits, IntV.bits, if_true, Bool.false_eq_true, if_false] <;> omega
    rw [((Props.Range.C17_no_truncation ptr signed target .w128 r chk hc v h128).2.1 v).2 ⟨rfl, hf, hs⟩]
    rfl
  refine ⟨fun hc hf hs => ?_, fun hc hf hs => ?_⟩
  · have hw := C50_written (F := F) (G := G) ptr true target v hf
    exact (C49_signed widen chk ptr target _ (types _ hw) _).2 (reply_of_data (keeps (intTy true target) v (hw _ _ rfl)) (main true hc hf hs))
  · have hw := C50_written (F := F) (G := G) ptr false target v hf
    exact (C49_unsigned widen chk ptr target _ (types _ hw) _).2 (reply_of_data (keeps (intTy false target) v (hw _ _ rfl)) (main false hc hf hs))

/-- Floats, in a format that keeps floats with their type. -/
theorem C50_numbers {α β : Type} [Ord α] [Ord β] (widen : Number.Fl β → Number.Fl α) (narrow : Number.Fl α → Number.Fl β)
    (from64 : List UInt8 → Option (Number.Fl α)) (from32 : List UInt8 → Option (Number.Fl β))
    (chk64 : Number.Fl α → Out Range.RangeError Unit) (chk32 : Number.Fl β → Out Range.RangeError Unit) (nan : TriAllow)
    (fmt : Format (Number.Fl α) (Number.Fl β)) (keeps : KeepsFloats fmt) :
    (∀ v, Number.parseF chk64 nan v = .ok v → ReadsBack (number64De widen from64 chk64 nan) fmt (writeF64 v) v) ∧
    (∀ v, Number.parseF chk32 nan v = .ok v → ReadsBack (number32De widen narrow from32 chk32 nan) fmt (writeF32 v) v) := by
  refine ⟨fun v hv => ?_, fun v hv => ?_⟩
  · exact ((C49_number widen narrow from64 from32 chk64 chk32 nan _).1 _).2 (reply_of_data (keeps.1 v) (by simp [textsOrFloats, hv]))
  · exact ((C49_number widen narrow from64 from32 chk64 chk32 nan _).2 _).2 (reply_of_data (keeps.2 v) (by simp [textsOrFloats, hv]))

/-- `byte` in a format for humans, if the library reads its own texts back. -/
theorem C50_byte (lib : List UInt8 → Option Nat) (text : Nat → List UInt8) (again : ∀ n, lib (text n) = some n) (maxSize : Nat)
    (chk : Nat → Out Range.RangeError Unit) (fmt : Format F G) (human : fmt.human = true) (keeps : KeepsText fmt) (v : Nat)
    (hv : Size.parseV chk v = .ok v) (t : Token F G) (ht : WritesText (text v) t) : ReadsBack (sizeDe widen lib maxSize chk) fmt t v := by
  obtain ⟨s, rfl, hs⟩ := ht
  refine (C49_byte widen lib maxSize chk _ _).2 ?_
  have : (fmt.reader (.str s)).human = true := human
  rw [if_pos this]
  refine reply_of_data (keeps s .str (by decide)) ?_
  simp only [hs, Size.parseStr, again, hv]

/-- `bit` and `length`, if the inner type reads back what it writes. -/
theorem C50_inner {κ : Type} (inner : Deserializer F G → Option κ) (len : κ → Nat) (chk : Nat → Out Range.RangeError Unit) (fmt : Format F G)
    (t : Token F G) (v : κ) (back : inner (fmt.reader t) = some v) (hv : Length.parseCollection chk len v = .ok v) :
    ReadsBack (lengthDe inner len chk) fmt t v := (C49_inner inner chk len _ v).2 ⟨back, hv⟩

/-! ## Decoded base-N values -/

/-- C50 is violated by the decoding validators: the decoded bytes are written, but an encoded text is read. In a format that
keeps bytes no value whatever comes back as itself. -/
theorem C50_decoded_violated (K : Kind) (pad : TriAllow) (fmt : Format F G) (keeps : KeepsBytes fmt) (v : List UInt8) :
    ¬ ReadsBack (decodedDe widen K.encoding pad) fmt (writeDecoded v) v := by
  intro h
  obtain ⟨e, h1, h2⟩ := reply_ok.1 ((C49_base_decoded widen K pad _ _).1 h)
  obtain ⟨e', h3, h4⟩ := keeps v
  have he : e = e' := by
    have : fmt.feed (.bytes v) .any = some e := h1
    rw [h3] at this
    exact (Option.some.inj this).symm
  rw [he, h4] at h2
  have h5 : BaseN.decodedParse K.encoding pad v = .ok v := Option.some.inj h2
  have := BaseN.length_decodedParse (by cases K <;> decide) (by cases K <;> decide) pad v v h5
  omega

/-! ## JSON -/

section Json

variable (finite : F → Bool) (ofInt : Int → F) (exact32 : G → F)

/-- JSON keeps texts and booleans, so the theorems above apply to it. -/
theorem C50_json_keeps : KeepsText (json finite ofInt exact32) ∧ KeepsBools (json finite ofInt exact32) := by
  refine ⟨?_, ?_⟩
  · intro s hint hh
    cases hint
    · exact ⟨.str s, rfl, rfl⟩
    · exact ⟨.str s, rfl, rfl⟩
    · exact ⟨.str s, rfl, rfl⟩
    · exact absurd rfl hh
  · intro b
    exact ⟨.bool b, rfl, rfl⟩

/-- C50 in JSON, integers: of the values of a signed validator exactly the negative ones of 64 bits can be read back (all
others are errors: the violation); of an unsigned validator exactly those of 64 bits. -/
theorem C50_json_integers_partial (ptr : IntV.Ptr) (target : IntV.Width) (r : Range.RangeOption Int) (chk : Int → Out Range.RangeError Unit) (v : Int)
    (hs : Spec.Range.Satisfies r v) :
    (IntV.check ptr true target r = some chk → Fits true (IntV.bits ptr target) v →
      (ReadsBack (intDe widen chk ptr target) (json finite ofInt exact32) (writeInt true target v) v ↔ -2 ^ 63 ≤ v ∧ v < 0) ∧
      (¬ (-2 ^ 63 ≤ v ∧ v < 0) → Outcome (intDe widen chk ptr target) ((json finite ofInt exact32).reader (writeInt true target v)) (.err ()))) ∧
    (IntV.check ptr false target r = some chk → Fits false (IntV.bits ptr target) v →
      (ReadsBack (uintDe widen chk ptr target) (json finite ofInt exact32) (writeInt false target v) v ↔ v < 2 ^ 64) ∧
      (¬ v < 2 ^ 64 → Outcome (uintDe widen chk ptr target) ((json finite ofInt exact32).reader (writeInt false target v)) (.err ()))) := by
  have feed : ∀ signed hint, ((json finite ofInt exact32).reader (writeInt (F := F) (G := G) signed target v)).feed hint =
      (match hint with
      | .any => some (if 0 ≤ v ∧ v < 2 ^ 64 then .int .u64 v else if -2 ^ 63 ≤ v ∧ v < 0 then .int .i64 v else .f64 (ofInt v))
      | .u128 => if 0 ≤ v then some (.int .u128 v) else none
      | _ => none) := by
    intro signed hint
    cases hint <;> rfl
  have typed : ∀ signed, Fits signed (IntV.bits ptr target) v → WellTyped ((json finite ofInt exact32).reader (writeInt (F := F) (G := G) signed target v)) := by
    intro signed hf hint ty x h
    have h128 : v < 2 ^ 128 := by
      revert hf
      cases signed <;> cases target <;> cases ptr <;> simp only [Fits, IntV.bits, if_true, Bool.false_eq_true, if_false] <;> omega
    rw [feed] at h
    cases hint with
    | any =>
      dsimp only at h
      split at h
      · cases h; rename_i h; exact h
      · split at h
        · cases h; rename_i h; exact ⟨h.1, by show v < 2 ^ 63; omega⟩
        · cases h
    | u128 =>
      dsimp only at h
      split at h
      · cases h; rename_i h; exact ⟨h, h128⟩
      · cases h
    | str => cases h
    | string => cases h
  have parse : ∀ signed, IntV.check ptr signed target r = some chk → Fits signed (IntV.bits ptr target) v →
      withRangeError (IntV.parseW chk ptr signed target .w128 v) = .ok v := by
    intro signed hc hf
    have h128 : Fits signed (IntV.bits ptr .w128) v := by
      revert hf
      cases signed <;> cases target <;> cases ptr <;> simp only [Fits, IntV.bits, if_true, Bool.false_eq_true, if_false] <;> omega
    rw [((Props.Range.C17_no_truncation ptr signed target .w128 r chk hc v h128).2.1 v).2 ⟨rfl, hf, hs⟩]
    rfl
  refine ⟨fun hc hf => ?_, fun hc hf => ?_⟩
  · have base := fun o => C49_signed widen chk ptr target _ (typed true hf) o
    by_cases h : -2 ^ 63 ≤ v ∧ v < 0
    · have h' : ¬ (0 ≤ v ∧ v < 2 ^ 64) := by omega
      have : ReadsBack (intDe widen chk ptr target) (json finite ofInt exact32) (writeInt true target v) v := by
        rw [ReadsBack, base]
        simp only [reply, feed, if_neg h', if_pos h, Option.bind_some, dataOf, textsOrInts, IsSigned, if_true, parse true hc hf]
      exact ⟨⟨fun _ => h, fun _ => this⟩, fun hn => absurd h hn⟩
    · have he : Outcome (intDe widen chk ptr target) ((json finite ofInt exact32).reader (writeInt true target v)) (.err ()) := by
        rw [base]
        simp only [reply, feed, if_neg h, Option.bind_some]
        by_cases h' : 0 ≤ v ∧ v < 2 ^ 64
        · simp only [if_pos h', dataOf, textsOrInts, IsSigned, Bool.false_eq_true, if_false]
        · simp only [if_neg h', dataOf, textsOrInts]
      refine ⟨⟨fun hr => ?_, fun h' => absurd h' h⟩, fun _ => he⟩
      rw [ReadsBack, base] at hr
      rw [base, ← hr] at he
      cases he
  · have base := fun o => C49_unsigned widen chk ptr target _ (typed false hf) o
    have h0 : 0 ≤ v := by
      have := hf.1
      simpa [Fits] using this
    by_cases h : v < 2 ^ 64
    · have h' : 0 ≤ v ∧ v < 2 ^ 64 := ⟨h0, h⟩
      have : ReadsBack (uintDe widen chk ptr target) (json finite ofInt exact32) (writeInt false target v) v := by
        rw [ReadsBack, base]
        simp only [reply, feed, if_pos h', Option.bind_some, dataOf, textsOrInts, IsSigned, if_true, parse false hc hf]
      exact ⟨⟨fun _ => h, fun _ => this⟩, fun hn => absurd h hn⟩
    · have h1 : ¬ (0 ≤ v ∧ v < 2 ^ 64) := fun x => h x.2
      have h2 : ¬ (-2 ^ 63 ≤ v ∧ v < 0) := by omega
      have he : Outcome (uintDe widen chk ptr target) ((json finite ofInt exact32).reader (writeInt false target v)) (.err ()) := by
        rw [base]
        simp only [reply, feed, if_neg h1, if_neg h2, Option.bind_some, dataOf, textsOrInts]
      refine ⟨⟨fun hr => ?_, fun h' => absurd h' h⟩, fun _ => he⟩
      rw [ReadsBack, base] at hr
      rw [base, ← hr] at he
      cases he

/-- C50 in JSON is violated by the decoding validators: no value can be read back at all. -/
theorem C50_json_decoded_violated (K : Kind) (pad : TriAllow) (v : List UInt8) :
    Outcome (decodedDe widen K.encoding pad) ((json finite ofInt exact32).reader (writeDecoded v)) (.err ()) :=
  (C49_base_decoded widen K pad _ _).2 rfl

/-- C50 in JSON is violated by `json` validators of a type that is not written as a string (`fromValue` refuses strings): the
text that is written is read as a string. -/
theorem C50_json_json_violated {ε V J : Type} (value : Deserializer F G → Option J) (string : List Char → J) (fromValue : J → Except ε V)
    (strings : ∀ d s, d.feed .any = some (.str s) → value d = some (string s)) (refuses : ∀ s, ∃ x, fromValue (string s) = .error x)
    (s : List Char) (v : V) :
    ¬ ReadsBack (jsonDe value fromValue) (json finite ofInt exact32) (.str s) v := by
  intro h
  obtain ⟨j, h1, h2⟩ := (C49_json value fromValue _ v).1 h
  rw [strings _ s rfl] at h1
  cases h1
  obtain ⟨x, hx⟩ := refuses s
  rw [hx] at h2
  cases h2

end Json

/-- C50 in JSON, `number` over `f64`: exactly the finite values can be read back; the infinities and NaN cannot (the violation). -/
theorem C50_json_numbers_partial {α β : Type} [Ord α] (widen : Number.Fl β → Number.Fl α) (from64 : List UInt8 → Option (Number.Fl α))
    (chk64 : Number.Fl α → Out Range.RangeError Unit) (nan : TriAllow) (finite : Number.Fl α → Bool) (ofInt : Int → Number.Fl α)
    (exact32 : Number.Fl β → Number.Fl α) (v : Number.Fl α) (hv : Number.parseF chk64 nan v = .ok v) :
    ReadsBack (number64De widen from64 chk64 nan) (json finite ofInt exact32) (writeF64 v) v ↔ finite v = true := by
  have base := fun o => (outcome_plain (drive widen (numberVisitor (fun s => Number.parseStr from64 chk64 nan (strBytes s))
    (fun s => Number.parseStr from64 chk64 nan (strBytes s)) (Number.parseF chk64 nan) (Number.parseF32viaF64 widen chk64 nan)) .any)
    ((json finite ofInt exact32).reader (writeF64 v)) o)
  rw [ReadsBack, number64De, numberDe, base, number_eq]
  have feed : ((json finite ofInt exact32).reader (writeF64 v)).feed .any = some (if finite v then .f64 v else .other) := rfl
  simp only [reply, feed, Option.bind_some]
  cases finite v <;> simp [dataOf, textsOrFloats, hv]

/-- C50 in JSON, `number` over `f32`: a value is written with the digits of the `f32`, read as an `f64` and rounded. -/
theorem C50_json_numbers32_partial {α β : Type} [Ord β] (widen : Number.Fl β → Number.Fl α) (narrow : Number.Fl α → Number.Fl β)
    (from32 : List UInt8 → Option (Number.Fl β))
    (chk32 : Number.Fl β → Out Range.RangeError Unit) (nan : TriAllow) (finite : Number.Fl α → Bool) (ofInt : Int → Number.Fl α)
    (exact32 : Number.Fl β → Number.Fl α) (v : Number.Fl β) (hv : Number.parseF chk32 nan v = .ok v) (rounds : narrow (exact32 v) = v) :
    ReadsBack (number32De widen narrow from32 chk32 nan) (json finite ofInt exact32) (writeF32 v) v ↔ finite (exact32 v) = true := by
  have base := fun o => (outcome_plain (drive widen (numberVisitor (fun s => Number.parseStr from32 chk32 nan (strBytes s))
    (fun s => Number.parseStr from32 chk32 nan (strBytes s)) (Number.parseF64viaF32 narrow chk32 nan) (Number.parseF chk32 nan)) .any)
    ((json finite ofInt exact32).reader (writeF32 v)) o)
  rw [ReadsBack, number32De, numberDe, base, number_eq]
  have feed : ((json finite ofInt exact32).reader (writeF32 v)).feed .any = some (if finite (exact32 v) then .f64 (exact32 v) else .other) := rfl
  simp only [reply, feed, Option.bind_some]
  cases finite (exact32 v) <;> simp [dataOf, textsOrFloats, Number.parseF64viaF32, hv, rounds]

/-! ## Concrete cases -/

/-- A format that keeps everything. -/
def echo : Format Unit Unit where
  human := true
  feed t _ := some (match t with
    | .bool b => .bool b | .int ty x => .int ty x | .f32 f => .f32 f | .f64 f => .f64 f | .str s => .str s | .bytes b => .bytes b | .other => .other)

theorem echo_types : KeepsTypes echo := by
  intro t ht hint ty x h
  cases t <;> simp only [Format.reader, echo, Option.some.injEq, reduceCtorEq] at h
  cases h
  exact ht _ _ rfl

example : KeepsText echo ∧ KeepsBools echo ∧ KeepsInts echo ∧ KeepsTypes echo ∧ KeepsFloats echo ∧ KeepsBytes echo :=
  ⟨fun _ _ _ => ⟨_, rfl, rfl⟩, fun _ => ⟨_, rfl, rfl⟩, fun _ _ _ => ⟨_, rfl, rfl⟩, echo_types, ⟨fun _ => ⟨_, rfl, rfl⟩, fun _ => ⟨_, rfl, rfl⟩⟩,
    fun _ => ⟨_, rfl, rfl⟩⟩

/-- A negative `isize` below `i32` meets the hypotheses of `C50_integers`, and comes back. -/
example : ∃ chk, IntV.check .p64 true .size .unlimited = some chk ∧ Fits true (IntV.bits .p64 .size) (-2147483649) ∧
    ReadsBack (intDe (F := Unit) (G := Unit) id chk .p64 .size) echo (writeInt true .size (-2147483649)) (-2147483649) := by
  refine ⟨_, rfl, ?_, ?_⟩
  · simp only [Fits, IntV.bits, if_true]; omega
  · refine (C50_integers id .p64 .size .unlimited _ echo (fun _ _ _ => ⟨_, rfl, rfl⟩) echo_types _).1 rfl ?_ trivial
    simp only [Fits, IntV.bits, if_true]; omega

example : ∀ hint e, echo.feed writeNumbers hint = some e → dataOf e = .nothing := by
  intro _ _ h; cases h; rfl

/-- The bytes of "ABCD" (from the text "QUJDRA==") are silently read as three other bytes. -/
example : BaseN.decodedParse Kind.base64.encoding .allow (ascii "QUJDRA==") = .ok (ascii "ABCD") ∧
    Outcome (decodedDe id Kind.base64.encoding .allow) (echo.reader (writeDecoded (ascii "ABCD"))) (.ok [0, 16, 131]) :=
  ⟨by decide, 1, by decide⟩

example : WritesText (F := Unit) (G := Unit) (Uuid.toUuidString .disallow .lower 7) (.str (List.replicate 31 '0' ++ ['7'])) := ⟨_, rfl, by decide +kernel⟩
example : WritesText (F := Unit) (G := Unit) (Ip.uriV4 (⟨127, 0, 0, 1⟩, some 80)) (.str "127.0.0.1:80".toList) := ⟨_, rfl, by decide +kernel⟩

/-- JSON: 5 is written by a signed validator and cannot be read back; -5 can. -/
example : ∃ chk, IntV.check .p64 true .w32 .unlimited = some chk ∧
    Outcome (intDe (F := Unit) (G := Unit) id chk .p64 .w32) ((json (fun _ => true) (fun _ => ()) id).reader (writeInt true .w32 5)) (.err ()) ∧
    Outcome (intDe (F := Unit) (G := Unit) id chk .p64 .w32) ((json (fun _ => true) (fun _ => ()) id).reader (writeInt true .w32 (-5))) (.ok (-5)) :=
  ⟨_, rfl, ⟨1, by decide⟩, ⟨1, by decide⟩⟩

/-- A library with one URL meets the laws. -/
example : UrlLaws (U := Unit) ⟨fun s => if s = ascii "http://localhost" then some () else none, fun _ => some (.domain (ascii "localhost"))⟩
    (fun _ => ascii "http://localhost") where
  again _ _ _ := by simp
  scheme p s u h hp := by
    have : s = ascii "http://localhost" := by
      simp only at hp
      split at hp
      · assumption
      · cases hp
    exact this ▸ h
  hosts _ _ _ _ _ := ⟨_, rfl⟩

end Verif.Props.SerdeBack
