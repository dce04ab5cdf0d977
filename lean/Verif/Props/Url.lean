import Verif.Proof.Url

/-!
# C46: the URL validators
-/

namespace Verif.Props.Url

open Verif Verif.Url Verif.Host Verif.Spec.Ip Verif.Spec.Host Verif.Spec.Url

variable {U : Type}

/-- The scheme the flag of `http_url` stands for. -/
def flagScheme (isHttps : Bool) : List UInt8 := if isHttps then ascii "https" else ascii "http"

/-- C46, `http_url`: the outcome for every text, every option and every URL library whose http and https URLs have a host.
The validator never panics. -/
theorem C46_http (lib : Lib U) (contract : HostsPresent lib) (loc : TriAllow) (s : List UInt8) :
    (∀ u b, parseHttp lib loc s = .ok (u, b) ↔ HasScheme (flagScheme b) s ∧ lib.parse s = some u ∧ LocalOk loc (LocalUrl lib u)) ∧
    (parseHttp lib loc s = .err .protocolError ↔ ∀ b, ¬ HasScheme (flagScheme b) s) ∧
    (parseHttp lib loc s = .err .parseError ↔ (∃ b, HasScheme (flagScheme b) s) ∧ lib.parse s = none) ∧
    (parseHttp lib loc s = .err .localMust ↔
      (∃ b, HasScheme (flagScheme b) s) ∧ loc = .must ∧ ∃ u, lib.parse s = some u ∧ ¬ LocalUrl lib u) ∧
    (parseHttp lib loc s = .err .localDisallow ↔
      (∃ b, HasScheme (flagScheme b) s) ∧ loc = .disallow ∧ ∃ u, lib.parse s = some u ∧ LocalUrl lib u) ∧
    parseHttp lib loc s ≠ .panic := by
  rcases parseHttp_eq lib loc s with ⟨e, h⟩ | ⟨e, h⟩ | ⟨e, h, h'⟩
  · rw [e]
    refine rest_outcome lib loc s false _ ?_ (fun u => contract .http s u h)
    intro b'
    cases b'
    · exact ⟨fun _ => rfl, fun _ => h⟩
    · exact ⟨fun k => absurd (scheme_unique .http .https s h k) (by decide), fun k => absurd k (by decide)⟩
  · rw [e]
    refine rest_outcome lib loc s true _ ?_ (fun u => contract .https s u h)
    intro b'
    cases b'
    · exact ⟨fun k => absurd (scheme_unique .http .https s k h) (by decide), fun k => absurd k (by decide)⟩
    · exact ⟨fun _ => rfl, fun _ => h⟩
  · have hn : ∀ b, ¬ HasScheme (flagScheme b) s := by intro b; cases b <;> assumption
    rw [e]
    simp [hn]

/-- C46, `http_ftp_url`: as above, with the protocol. -/
theorem C46_http_ftp (lib : Lib U) (contract : HostsPresent lib) (loc : TriAllow) (s : List UInt8) :
    (∀ u p, parseHttpFtp lib loc s = .ok (u, p) ↔ HasScheme (schemeOf p) s ∧ lib.parse s = some u ∧ LocalOk loc (LocalUrl lib u)) ∧
    (parseHttpFtp lib loc s = .err .protocolError ↔ ∀ p, ¬ HasScheme (schemeOf p) s) ∧
    (parseHttpFtp lib loc s = .err .parseError ↔ (∃ p, HasScheme (schemeOf p) s) ∧ lib.parse s = none) ∧
    (parseHttpFtp lib loc s = .err .localMust ↔
      (∃ p, HasScheme (schemeOf p) s) ∧ loc = .must ∧ ∃ u, lib.parse s = some u ∧ ¬ LocalUrl lib u) ∧
    (parseHttpFtp lib loc s = .err .localDisallow ↔
      (∃ p, HasScheme (schemeOf p) s) ∧ loc = .disallow ∧ ∃ u, lib.parse s = some u ∧ LocalUrl lib u) ∧
    parseHttpFtp lib loc s ≠ .panic := by
  rcases parseHttpFtp_eq lib loc s with ⟨q, e, h⟩ | ⟨e, h⟩
  · have hs : ∀ p, HasScheme (schemeOf p) s ↔ p = q := fun p => ⟨fun k => scheme_unique p q s k h, fun k => k ▸ h⟩
    rw [e]
    exact rest_outcome lib loc s q _ hs fun u => contract q s u h
  · rw [e]
    simp [h]

/-- C46: `parse_string` and `parse_str` return what the parser returns, and `validate_str` succeeds or fails alike. -/
theorem C46_entry_points (lib : Lib U) (loc : TriAllow) (s : List UInt8) :
    parseHttpStr lib loc s = parseHttp lib loc s ∧ validateHttpStr lib loc s = (parseHttp lib loc s).void ∧
    parseHttpFtpStr lib loc s = parseHttpFtp lib loc s ∧ validateHttpFtpStr lib loc s = (parseHttpFtp lib loc s).void := by
  unfold parseHttpStr validateHttpStr parseHttpFtpStr validateHttpFtpStr
  refine ⟨?_, ?_, ?_, ?_⟩
  · cases parseHttp lib loc s <;> rfl
  · cases parseHttp lib loc s <;> rfl
  · cases parseHttpFtp lib loc s <;> rfl
  · cases parseHttpFtp lib loc s <;> rfl

/-- C46: the two validators agree on http and https, and `http_ftp_url` accepts besides only `ftp:`. -/
theorem C46_agree (lib : Lib U) (loc : TriAllow) (s : List UInt8) (h : ¬ HasScheme (ascii "ftp") s) :
    parseHttpFtp lib loc s = (parseHttp lib loc s).map fun x => (x.1, if x.2 then .https else .http) := by
  have fin : ∀ b p, (if b then Protocol.https else .http) = p →
      rest lib loc s p = (rest lib loc s b).map fun x : U × Bool => (x.1, if x.2 then Protocol.https else .http) := by
    rintro b p rfl
    unfold rest
    cases lib.parse s with
    | none => rfl
    | some u => cases hu : handleLocal lib loc u <;> simp [hu]
  rcases parseHttp_eq lib loc s with ⟨e, k⟩ | ⟨e, k⟩ | ⟨e, k, k'⟩
  · rcases parseHttpFtp_eq lib loc s with ⟨q, e', h'⟩ | ⟨_, h'⟩
    · cases scheme_unique q .http s h' k
      rw [e, e', fin false .http rfl]
    · exact absurd k (h' .http)
  · rcases parseHttpFtp_eq lib loc s with ⟨q, e', h'⟩ | ⟨_, h'⟩
    · cases scheme_unique q .https s h' k
      rw [e, e', fin true .https rfl]
    · exact absurd k (h' .https)
  · rcases parseHttpFtp_eq lib loc s with ⟨q, e', h'⟩ | ⟨e', _⟩
    · cases q
      · exact absurd h' k
      · exact absurd h' k'
      · exact absurd h' h
    · rw [e, e']
      rfl

/-- A library that knows one URL. -/
def toy : Lib Unit where
  parse s := if s = ascii "HtTpS://localhost" then some () else none
  host _ := some (.domain (ascii "localhost"))

/-- The contract can be met, and the outcomes occur. -/
example : HostsPresent toy := fun _ _ _ _ _ => ⟨_, rfl⟩
example : HasScheme (flagScheme true) (ascii "HtTpS://localhost") := ⟨ascii "HtTpS", ascii "//localhost", by decide, by decide⟩
example : parseHttp toy .must (ascii "HtTpS://localhost") = .ok ((), true) ∧
    parseHttp toy .disallow (ascii "HtTpS://localhost") = .err .localDisallow ∧
    parseHttp toy .allow (ascii "http://x") = .err .parseError ∧ parseHttp toy .allow (ascii "ftp://x") = .err .protocolError ∧
    parseHttpFtp toy .allow (ascii "FTP:x") = .err .parseError ∧ parseHttp toy .allow (ascii "httpx://") = .err .protocolError := by decide

/-- The contract is needed: the check of the host panics on a URL without one. -/
example : parseHttp (U := Unit) ⟨fun _ => some (), fun _ => none⟩ .must (ascii "http:") = .panic := by decide

end Verif.Props.Url
