/-!
# Feature combinations: what a build contains

What Cargo turns on for a request, and what it means that every name a piece of code uses exists.
-/

namespace Verif.Features

/-- The features of the crate `validators`: `validators/Cargo.toml` L33-127, in that order.  `validators-derive` has the ones
named in `validators-derive/Cargo.toml` L30-67, which bear the same names. -/
inductive Feature where
  | default_ | derive | std | test | full | byteUnitU128 | allValidators | base32
  | base32Decoded | base64 | base64Decoded | base64Url | base64UrlDecoded | bit | boolean | byte
  | domain | email | host | httpUrl | httpFtpUrl | ip | ipv4 | ipv6
  | json | length | line | macAddress | number | phone | regex | semver
  | semverReq | signedInteger | text | unsignedInteger | url | uuid | dataEncoding | idna
  | byteUnit | urlDep | strUtils | serdeJson | phonenumber | regexDep | semverDep | serde
  | rocket | axum
  deriving DecidableEq, Repr

/-- The optional dependencies of `validators`: `validators/Cargo.toml` L16-30. -/
inductive Crate where
  | validatorsDerive | dataEncoding | idna | byteUnit | urlDep | strUtils | serdeJson
  | phonenumber | regexDep | semverDep | serde | rocket | axum
  deriving DecidableEq, Repr

/-- The features of these dependencies that `validators/Cargo.toml` L36-127 names. -/
inductive DepFeature where
  | std | u128 | bit | byte | serde | rocket
  deriving DecidableEq, Repr

/-- The optional dependencies of `validators-derive`: `validators-derive/Cargo.toml` L25-27. -/
inductive MacroCrate where
  | educe | phonenumber | regex
  deriving DecidableEq, Repr

/-- What can be on or off in a build. -/
inductive Atom where
  /-- `feature = "…"` in the sources of `validators` -/
  | feature (f : Feature)
  /-- `feature = "…"` in the sources of `validators-derive` -/
  | derived (f : Feature)
  /-- the optional dependency is built and can be named from `validators` -/
  | dep (c : Crate)
  /-- the feature of that dependency -/
  | depFeature (c : Crate) (f : DepFeature)
  /-- the optional dependency of `validators-derive` is built -/
  | macroDep (c : MacroCrate)
  /-- the feature `full` of `syn` -/
  | synFull
  /-- the crate that writes `#[derive(Validator)]` is not `#![no_std]` -/
  | userStd
  deriving DecidableEq, Repr

/-- An entry of a `[features]` table: when everything in `body` is on, so is `head`. -/
structure Rule where
  body : List Atom
  head : Atom
  deriving DecidableEq, Repr

/-- A `cfg` predicate without `not`: one of the lists holds entirely. -/
abbrev Cond := List (List Atom)

/-- A use of a name, and the `cfg`s around it. -/
structure Use (ι : Type) where
  guard : Cond
  item : ι

/-- What is asked for, with no limit on it: any set of features of `validators`, any features of its dependencies that other crates
of the same build ask for, and whether the crate that derives has the standard library. -/
structure Request where
  asked : Feature → Prop
  elsewhere : Crate → DepFeature → Prop
  std : Prop

/-- The atoms a request turns on by itself. -/
def Request.direct (q : Request) : Atom → Prop
  | .feature f => q.asked f
  | .depFeature c f => q.elsewhere c f
  | .userStd => q.std
  | _ => False

/-- Cargo: the least set of atoms that has what is asked for and follows the feature tables. -/
inductive On (rules : List Rule) (q : Request) : Atom → Prop where
  | asked {a : Atom} (h : q.direct a) : On rules q a
  | rule {r : Rule} (m : r ∈ rules) (h : ∀ a ∈ r.body, On rules q a) : On rules q r.head

/-- A `cfg` holds. -/
def Holds (on : Atom → Prop) (c : Cond) : Prop := ∃ l ∈ c, ∀ a ∈ l, on a

/-- A use is fine: if it is compiled at all, the name exists. -/
def Resolves {ι : Type} (on : Atom → Prop) (existsWhen : ι → Cond) (u : Use ι) : Prop :=
  Holds on u.guard → Holds on (existsWhen u.item)

/-- A request for these features and nothing else. -/
def only (l : List Feature) : Request := ⟨(· ∈ l), fun _ _ => False, False⟩

/-! ### What a validator brings along -/

/-- The crates that each validator, asked for alone, should build: those its documentation or its types name. -/
def crates : Feature → List Crate
  | .base32Decoded | .base64Decoded | .base64UrlDecoded => [.dataEncoding]
  | .bit | .byte => [.byteUnit]
  | .domain | .email | .host => [.idna]
  | .httpUrl | .httpFtpUrl => [.strUtils, .urlDep]
  | .json => [.serdeJson, .serde]
  | .phone => [.phonenumber]
  | .regex => [.regexDep]
  | .semver | .semverReq => [.semverDep]
  | .url => [.urlDep]
  | _ => []

/-- The validators that come with a validator. -/
def brings : Feature → List Feature
  | .httpUrl | .httpFtpUrl => [.url]
  | _ => []

end Verif.Features
