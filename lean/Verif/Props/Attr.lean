import Verif.Proof.AttrAll
import Verif.Proof.AttrFixture

/-!
# Property C53: the parameters of `#[validator(...)]`

For each kind of attribute: exactly which parameter lists are accepted and what the configuration is, with the names of the
parameters and the defaults written out; and that the order does not matter. `E` is arbitrary: what `syn` reads, the
features, the number type.
-/

namespace Verif.Props.Attr

open Verif.Attr Verif.Spec.Attr
open Verif.Range (Bounds RangeOption)

variable {τ α κ : Type} [DecidableEq κ]


/-- C53, the base-N validators. -/
theorem C53_base (E : Env τ α κ) (m : Meta τ) (a : BaseAttribute) :
    baseAttribute E m = .ok a ↔ ∃ ps, Gives E.syn m ps ∧
      WellFormed ["padding", "serde", "rocket"] ps ∧
      Set ps "padding" (SaysTri E.syn) .allow a.padding ∧
      Set ps "serde" (SaysFlags E.syn E.serde "Serialize" "Deserialize") ⟨true, true⟩ a.serde ∧
      Set ps "rocket" (SaysFlags E.syn E.rocket "FromFormField" "FromParam") ⟨true, true⟩ a.rocket :=
  base_iff E m a

/-- C53, `boolean`, `json`, `semver` and `semver_req`. -/
theorem C53_basic (E : Env τ α κ) (m : Meta τ) (a : BasicAttribute) :
    basicAttribute E m = .ok a ↔ ∃ ps, Gives E.syn m ps ∧
      WellFormed ["serde", "rocket"] ps ∧
      Set ps "serde" (SaysFlags E.syn E.serde "Serialize" "Deserialize") ⟨true, true⟩ a.serde ∧
      Set ps "rocket" (SaysFlags E.syn E.rocket "FromFormField" "FromParam") ⟨true, true⟩ a.rocket :=
  basic_iff E m a

/-- C53, the URL validators. -/
theorem C53_url (E : Env τ α κ) (m : Meta τ) (a : UrlAttribute) :
    urlAttribute E m = .ok a ↔ ∃ ps, Gives E.syn m ps ∧
      WellFormed ["local", "serde", "rocket"] ps ∧
      Set ps "local" (SaysTri E.syn) .allow a.loc ∧
      Set ps "serde" (SaysFlags E.syn E.serde "Serialize" "Deserialize") ⟨true, true⟩ a.serde ∧
      Set ps "rocket" (SaysFlags E.syn E.rocket "FromFormField" "FromParam") ⟨true, true⟩ a.rocket :=
  url_iff E m a

/-- C53, `ip`, `ipv4` and `ipv6`. -/
theorem C53_ip (E : Env τ α κ) (m : Meta τ) (a : IpAttribute) :
    ipAttribute E m = .ok a ↔ ∃ ps, Gives E.syn m ps ∧
      WellFormed ["local", "port", "serde", "rocket"] ps ∧
      Set ps "local" (SaysTri E.syn) .allow a.loc ∧
      Set ps "port" (SaysTri E.syn) .allow a.port ∧
      Set ps "serde" (SaysFlags E.syn E.serde "Serialize" "Deserialize") ⟨true, true⟩ a.serde ∧
      Set ps "rocket" (SaysFlags E.syn E.rocket "FromFormField" "FromParam") ⟨true, true⟩ a.rocket :=
  ip_iff E m a

/-- C53, `signed_integer` and `unsigned_integer`. -/
theorem C53_range (E : Env τ α κ) (m : Meta τ) (a : RangeAttribute α) :
    rangeAttribute E m = .ok a ↔ ∃ ps, Gives E.syn m ps ∧
      WellFormed ["range", "serde", "rocket"] ps ∧
      Set ps "range" (SaysFinite E.syn E.full E.num) .unlimited a.range ∧
      Set ps "serde" (SaysFlags E.syn E.serde "Serialize" "Deserialize") ⟨true, true⟩ a.serde ∧
      Set ps "rocket" (SaysFlags E.syn E.rocket "FromFormField" "FromParam") ⟨true, true⟩ a.rocket :=
  range_iff E m a

/-- C53, `bit`. -/
theorem C53_bit (E : Env τ α κ) (m : Meta τ) (a : BitAttribute α) :
    bitAttribute E m = .ok a ↔ ∃ ps, Gives E.syn m ps ∧
      WellFormed ["range", "serde", "rocket"] ps ∧
      Set ps "range" (SaysRange E.syn E.full E.num) ⟨none, none, false⟩ a.range ∧
      Set ps "serde" (SaysFlags E.syn E.serde "Serialize" "Deserialize") ⟨true, true⟩ a.serde ∧
      Set ps "rocket" (SaysFlags E.syn E.rocket "FromFormField" "FromParam") ⟨true, true⟩ a.rocket :=
  bit_iff E m a

/-- C53, `byte`. -/
theorem C53_byte (E : Env τ α κ) (m : Meta τ) (a : ByteAttribute α) :
    byteAttribute E m = .ok a ↔ ∃ ps, Gives E.syn m ps ∧
      WellFormed ["range", "ignore_case", "serde", "rocket"] ps ∧
      Set ps "range" (SaysRange E.syn E.full E.num) ⟨none, none, false⟩ a.range ∧
      Set ps "ignore_case" (SaysBool E.syn) true a.ignoreCase ∧
      Set ps "serde" (SaysFlags E.syn E.serde "Serialize" "Deserialize") ⟨true, true⟩ a.serde ∧
      Set ps "rocket" (SaysFlags E.syn E.rocket "FromFormField" "FromParam") ⟨true, true⟩ a.rocket :=
  byte_iff E m a

/-- C53, `domain`. -/
theorem C53_domain (E : Env τ α κ) (m : Meta τ) (a : DomainAttribute) :
    domainAttribute E m = .ok a ↔ ∃ ps, Gives E.syn m ps ∧
      WellFormed ["ipv4", "local", "port", "at_least_two_labels", "conflict", "serde", "rocket"] ps ∧
      Set ps "ipv4" (SaysTri E.syn) .allow a.ipv4 ∧
      Set ps "local" (SaysTri E.syn) .allow a.loc ∧
      Set ps "port" (SaysTri E.syn) .allow a.port ∧
      Set ps "at_least_two_labels" (SaysTri E.syn) .allow a.atl ∧
      Set ps "conflict" (SaysAllow E.syn) .disallow a.conflict ∧
      Set ps "serde" (SaysFlags E.syn E.serde "Serialize" "Deserialize") ⟨true, true⟩ a.serde ∧
      Set ps "rocket" (SaysFlags E.syn E.rocket "FromFormField" "FromParam") ⟨true, true⟩ a.rocket :=
  domain_iff E m a

/-- C53, `email`. -/
theorem C53_email (E : Env τ α κ) (m : Meta τ) (a : EmailAttribute) :
    emailAttribute E m = .ok a ↔ ∃ ps, Gives E.syn m ps ∧
      WellFormed ["comment", "ip", "local", "at_least_two_labels", "non_ascii", "conflict", "serde", "rocket"] ps ∧
      Set ps "comment" (SaysAllow E.syn) .allow a.comment ∧
      Set ps "ip" (SaysTri E.syn) .allow a.ip ∧
      Set ps "local" (SaysTri E.syn) .allow a.loc ∧
      Set ps "at_least_two_labels" (SaysTri E.syn) .allow a.atl ∧
      Set ps "non_ascii" (SaysAllow E.syn) .allow a.nonAscii ∧
      Set ps "conflict" (SaysAllow E.syn) .disallow a.conflict ∧
      Set ps "serde" (SaysFlags E.syn E.serde "Serialize" "Deserialize") ⟨true, true⟩ a.serde ∧
      Set ps "rocket" (SaysFlags E.syn E.rocket "FromFormField" "FromParam") ⟨true, true⟩ a.rocket :=
  email_iff E m a

/-- C53, `host`. -/
theorem C53_host (E : Env τ α κ) (m : Meta τ) (a : HostAttribute) :
    hostAttribute E m = .ok a ↔ ∃ ps, Gives E.syn m ps ∧
      WellFormed ["local", "port", "at_least_two_labels", "serde", "rocket"] ps ∧
      Set ps "local" (SaysTri E.syn) .allow a.loc ∧
      Set ps "port" (SaysTri E.syn) .allow a.port ∧
      Set ps "at_least_two_labels" (SaysTri E.syn) .allow a.atl ∧
      Set ps "serde" (SaysFlags E.syn E.serde "Serialize" "Deserialize") ⟨true, true⟩ a.serde ∧
      Set ps "rocket" (SaysFlags E.syn E.rocket "FromFormField" "FromParam") ⟨true, true⟩ a.rocket :=
  host_iff E m a

/-- C53, `mac_address` (separator `:`) and `uuid` (separator `-`). -/
theorem C53_hex (sep : Char) (E : Env τ α κ) (m : Meta τ) (a : HexAttribute) :
    hexAttribute sep E m = .ok a ↔ ∃ ps, Gives E.syn m ps ∧
      WellFormed ["case", "separator", "serde", "rocket"] ps ∧
      Set ps "case" (SaysCase E.syn) .any a.case ∧
      Set ps "separator" (SaysSeparator E.syn) (.allow (asc sep)) a.separator ∧
      Set ps "serde" (SaysFlags E.syn E.serde "Serialize" "Deserialize") ⟨true, true⟩ a.serde ∧
      Set ps "rocket" (SaysFlags E.syn E.rocket "FromFormField" "FromParam") ⟨true, true⟩ a.rocket :=
  hex_iff sep E m a

/-- C53, `number`. -/
theorem C53_number (E : Env τ α κ) (m : Meta τ) (a : NumberAttribute α) :
    numberAttribute E m = .ok a ↔ ∃ ps, Gives E.syn m ps ∧
      WellFormed ["range", "nan", "conflict", "serde", "rocket"] ps ∧
      Set ps "range" (SaysFinite E.syn E.full E.num) .unlimited a.range ∧
      Set ps "nan" (SaysTri E.syn) .allow a.nan ∧
      Set ps "conflict" (SaysAllow E.syn) .disallow a.conflict ∧
      Set ps "serde" (SaysFlags E.syn E.serde "Serialize" "Deserialize") ⟨true, true⟩ a.serde ∧
      Set ps "rocket" (SaysFlags E.syn E.rocket "FromFormField" "FromParam") ⟨true, true⟩ a.rocket :=
  number_iff E m a

/-- C53, `phone`. -/
theorem C53_phone (E : Env τ α κ) (m : Meta τ) (a : PhoneAttribute κ) :
    phoneAttribute E m = .ok a ↔ ∃ ps, Gives E.syn m ps ∧
      WellFormed ["countries", "serde", "rocket"] ps ∧
      Set ps "countries" (SaysCountries E.syn E.country E.order) [] a.countries ∧
      Set ps "serde" (SaysFlags E.syn E.serde "Serialize" "Deserialize") ⟨true, true⟩ a.serde ∧
      Set ps "rocket" (SaysFlags E.syn E.rocket "FromFormField" "FromParam") ⟨true, true⟩ a.rocket :=
  phone_iff E m a

/-- C53: the separators that `mac_address` and `uuid` take by default. -/
theorem C53_separators (E : Env τ α κ) : macAttribute E = hexAttribute ':' E ∧ uuidAttribute E = hexAttribute '-' E := ⟨rfl, rfl⟩

/-- C53, `length`: bounds without default, and in order. -/
theorem C53_length (E : Env τ α κ) (m : Meta τ) (a : LengthAttribute) :
    lengthAttribute E m = .ok a ↔ ∃ ps, Gives E.syn m ps ∧ WellFormed ["min", "max", "serde"] ps ∧
      SetOpt ps "min" (SaysNumber E.syn E.usize) a.min ∧ SetOpt ps "max" (SaysNumber E.syn E.usize) a.max ∧
      Set ps "serde" (SaysFlags E.syn E.serde "Serialize" "Deserialize") ⟨true, true⟩ a.serde ∧ NotAbove a.min a.max :=
  length_iff E m a

/-- C53, `regex`: the parameter `regex` is required. -/
theorem C53_regex (E : Env τ α κ) (m : Meta τ) (a : RegexAttribute) :
    regexAttribute E m = .ok a ↔ ∃ ps, Gives E.syn m ps ∧ WellFormed ["regex", "serde", "rocket"] ps ∧
      SetOpt ps "regex" (SaysRegex E.syn E.regexOk) (some a.regex) ∧
      Set ps "serde" (SaysFlags E.syn E.serde "Serialize" "Deserialize") ⟨true, true⟩ a.serde ∧
      Set ps "rocket" (SaysFlags E.syn E.rocket "FromFormField" "FromParam") ⟨true, true⟩ a.rocket :=
  regex_iff E m a

/-- C53, `line` and `text`: at most one of `char_length` and `byte_length`. -/
theorem C53_utf8 (E : Env τ α κ) (m : Meta τ) (a : Utf8Attribute) :
    utf8Attribute E m = .ok a ↔ ∃ ps, Gives E.syn m ps ∧ WellFormed ["char_length", "byte_length", "serde", "rocket"] ps ∧
      SaysText E.syn E.usize ps a.length ∧
      Set ps "serde" (SaysFlags E.syn E.serde "Serialize" "Deserialize") ⟨true, true⟩ a.serde ∧
      Set ps "rocket" (SaysFlags E.syn E.rocket "FromFormField" "FromParam") ⟨true, true⟩ a.rocket :=
  utf8_iff E m a

/-- C53: no attribute depends on the order of its parameters. -/
theorem C53_order (E : Env τ α κ) :
    OrderFree E.syn (baseAttribute E) ∧ OrderFree E.syn (basicAttribute E) ∧ OrderFree E.syn (urlAttribute E) ∧
    OrderFree E.syn (ipAttribute E) ∧ OrderFree E.syn (rangeAttribute E) ∧ OrderFree E.syn (bitAttribute E) ∧
    OrderFree E.syn (byteAttribute E) ∧ OrderFree E.syn (domainAttribute E) ∧ OrderFree E.syn (emailAttribute E) ∧
    OrderFree E.syn (hostAttribute E) ∧ OrderFree E.syn (macAttribute E) ∧ OrderFree E.syn (uuidAttribute E) ∧
    OrderFree E.syn (numberAttribute E) ∧ OrderFree E.syn (phoneAttribute E) ∧ OrderFree E.syn (lengthAttribute E) ∧
    OrderFree E.syn (regexAttribute E) ∧ OrderFree E.syn (utf8Attribute E) :=
  ⟨base_order E, basic_order E, url_order E, ip_order E, range_order E, bit_order E, byte_order E, domain_order E, email_order E,
    host_order E, hex_order ':' E, hex_order '-' E, number_order E, phone_order E, length_order E, regex_order E, utf8_order E⟩

/-! ## Examples: a small `syn` -/

/-- `email(ip(Disallow), comment = Disallow)`, in both orders; a parameter given twice; an unknown parameter. -/
example : emailAttribute env (.list (some "email") (.metas [.list (some "ip") (.word "Disallow"), .nameValue (some "comment") (.path (some "Disallow"))])) =
      .ok ⟨.disallow, .disallow, .allow, .allow, .allow, .disallow, ⟨true, true⟩, ⟨true, true⟩⟩ ∧
    emailAttribute env (.list (some "email") (.metas [.nameValue (some "comment") (.path (some "Disallow")), .list (some "ip") (.word "Disallow")])) =
      .ok ⟨.disallow, .disallow, .allow, .allow, .allow, .disallow, ⟨true, true⟩, ⟨true, true⟩⟩ ∧
    emailAttribute env (.list (some "email") (.metas [.list (some "ip") (.word "Allow"), .list (some "ip") (.word "Allow")])) = .err .reset ∧
    emailAttribute env (.list (some "email") (.metas [.list (some "port") (.word "Allow")])) = .err .unknown ∧
    emailAttribute env (.path (some "email")) = .ok ⟨.allow, .allow, .allow, .allow, .allow, .disallow, ⟨true, true⟩, ⟨true, true⟩⟩ := by
  decide +kernel

/-- `line(char_length(min = 1, max = 3), serde(Serialize))`, `line(char_length(min = 1), byte_length(max = 3))`,
`length(min = 3, max = 1)`, `regex`, `phone(countries(TW, TW))`. -/
example : utf8Attribute env (.list (some "line") (.metas [.list (some "char_length") (.metas [.nameValue (some "min") (.lit (.int (ascii "1"))),
        .nameValue (some "max") (.lit (.int (ascii "3")))]), .list (some "serde") (.words ["Serialize"])])) =
      .ok ⟨some (false, ⟨some 1, none, some 3⟩), ⟨true, false⟩, ⟨true, true⟩⟩ ∧
    utf8Attribute env (.list (some "line") (.metas [.list (some "char_length") (.metas [.nameValue (some "min") (.lit (.int (ascii "1")))]),
        .list (some "byte_length") (.metas [.nameValue (some "max") (.lit (.int (ascii "3")))])])) = .err .reset ∧
    lengthAttribute env (.list (some "length") (.metas [.nameValue (some "min") (.lit (.int (ascii "3"))),
        .nameValue (some "max") (.lit (.int (ascii "1")))])) = .err .order ∧
    regexAttribute env (.path (some "regex")) = .err .missing ∧
    phoneAttribute env (.list (some "phone") (.metas [.list (some "countries") (.words ["TW", "US"])])) = .ok ⟨[0, 1], ⟨true, true⟩, ⟨true, true⟩⟩ ∧
    phoneAttribute env (.list (some "phone") (.metas [.list (some "countries") (.words ["TW", "TW"])])) = .err .repeated := by
  decide +kernel

end Verif.Props.Attr
