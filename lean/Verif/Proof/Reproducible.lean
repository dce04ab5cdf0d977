import Verif.Proof.Derive
import Verif.Proof.Diag

/-!
# The order of the set of countries, and what depends on it
-/

namespace Verif.Proof.Reproducible

open Verif Verif.Attr Verif.Derive

variable {τ φ κ α : Type}

/-- The order in which the elements were inserted. -/
def written : Order κ := ⟨id, fun _ => .refl _⟩

/-- The values of a parameter in another order: only `countries` has one. -/
def shuffle (o : Order κ) : (k : Key) → k.Val α κ → k.Val α κ
  | .countries, v => o.list v
  | .padding, v | .loc, v | .port, v | .atl, v | .comment, v | .nonAscii, v | .ip, v | .ipv4, v | .conflict, v | .nan, v | .range, v
  | .bounds, v | .ignoreCase, v | .case, v | .separator, v | .length, v | .regex, v | .min, v | .max, v | .serde, v | .rocket, v => v

/-- The same of all local variables. -/
def shuffleAll {K : Type} {V : K → Type} (f : (k : K) → V k → V k) (s : State V) : State V := fun k => (s k).map (f k)

section
variable {K : Type} [DecidableEq K] {V : K → Type} (f : (k : K) → V k → V k)

theorem shuffleAll_put (s : State V) (k : K) (v : V k) : shuffleAll f (State.put s k v) = State.put (shuffleAll f s) k (f k v) := by
  funext j
  simp only [shuffleAll, State.put]
  split
  · rename_i h; subst h; rfl
  · rfl

theorem assign_map {ε : Type} (s : State V) (k : K) (e : ε) (r : Out ε (V k)) :
    assign (shuffleAll f s) k e (r.map (f k)) = (assign s k e r).map (shuffleAll f) := by
  have hs : (shuffleAll f s k).isSome = (s k).isSome := by simp [shuffleAll]
  cases r with
  | ok v =>
    simp only [Out.map, assign, hs]
    split
    · rfl
    · simp only [shuffleAll_put]
  | err e => rfl
  | panic =>
    simp only [Out.map, assign, hs]
    split <;> rfl

theorem bind_of_map {ε A B C : Type} (x : Out ε A) (g : A → B) (h : B → Out ε C) : (x.map g).bind h = x.bind fun a => h (g a) := by
  cases x <;> rfl

theorem map_of_bind {ε A B C : Type} (x : Out ε A) (g : A → Out ε B) (h : B → C) : (x.bind g).map h = x.bind fun a => (g a).map h := by
  cases x <;> rfl

theorem map_of_map {ε A B C : Type} (x : Out ε A) (g : A → B) (h : B → C) : (x.map g).map h = x.map fun a => h (g a) := by
  cases x <;> rfl

theorem bind_congr' {ε A B : Type} (x : Out ε A) (g h : A → Out ε B) (e : ∀ a, g a = h a) : x.bind g = x.bind h := by
  cases x <;> simp [Out.bind, e]

omit [DecidableEq K] in
theorem shuffleAll_init : shuffleAll f (State.init V) = State.init V := rfl

theorem run_map (T T' : Attr.Table τ V) (hk : T'.key = T.key) (hc : T'.checkFirst = T.checkFirst)
    (hr : ∀ k m, T'.read k m = (T.read k m).map (f k)) (ms : List (Meta τ)) (s : State V) :
    Attr.run T' ms (shuffleAll f s) = (Attr.run T ms s).map (shuffleAll f) := by
  induction ms generalizing s with
  | nil => rfl
  | cons m ms ih =>
    simp only [Attr.run, map_of_bind]
    have : Attr.step T' (shuffleAll f s) m = (Attr.step T s m).map (shuffleAll f) := by
      simp only [Attr.step, hk, hc]
      cases m.name.bind T.key with
      | none => rfl
      | some k =>
        have hs : (shuffleAll f s k).isSome = (s k).isSome := by simp [shuffleAll]
        simp only [hs]
        split
        · rfl
        · rw [hr, assign_map]
    rw [this, bind_of_map]
    exact bind_congr' _ _ _ fun a => ih a

theorem params_map (syn : Syn τ) (T T' : Attr.Table τ V) (hk : T'.key = T.key) (hc : T'.checkFirst = T.checkFirst)
    (hr : ∀ k m, T'.read k m = (T.read k m).map (f k)) (m : Meta τ) :
    Attr.params syn T' m = (Attr.params syn T m).map (shuffleAll f) := by
  cases m with
  | path n => rfl
  | nameValue n e => rfl
  | list n t =>
    simp only [Attr.params, map_of_bind]
    exact bind_congr' _ _ _ fun ps => run_map f T T' hk hc hr ps (State.init V)

theorem diag_run_map (other : Meta τ → String) (T T' : Diag.Table τ α V) (hl : T'.listed = T.listed) (hk : T'.key = T.key)
    (hc : T'.checkFirst = T.checkFirst) (hr : ∀ k m, T'.read k m = (T.read k m).map (f k)) (ms : List (Meta τ)) (s : State V) :
    Diag.run other T' ms (shuffleAll f s) = (Diag.run other T ms s).map (shuffleAll f) := by
  induction ms generalizing s with
  | nil => rfl
  | cons m ms ih =>
    simp only [Diag.run, map_of_bind]
    have : Diag.step other T' (shuffleAll f s) m = (Diag.step other T s m).map (shuffleAll f) := by
      simp only [Diag.step, hk, hc, hl]
      cases m.name.bind T.key with
      | none => rfl
      | some k =>
        have hs : (shuffleAll f s k).isSome = (s k).isSome := by simp [shuffleAll]
        simp only [hs]
        split
        · rfl
        · rw [hr, assign_map]
    rw [this, bind_of_map]
    exact bind_congr' _ _ _ fun a => ih a

theorem diag_params_map (syn : Syn τ) (other : Meta τ → String) (T T' : Diag.Table τ α V) (hl : T'.listed = T.listed) (hk : T'.key = T.key)
    (hc : T'.checkFirst = T.checkFirst) (hr : ∀ k m, T'.read k m = (T.read k m).map (f k)) (m : Meta τ) :
    Diag.params syn other T' m = (Diag.params syn other T m).map (shuffleAll f) := by
  cases m with
  | path n => rfl
  | nameValue n e => rfl
  | list n t =>
    simp only [Diag.params, map_of_bind]
    exact bind_congr' _ _ _ fun ps => diag_run_map f other T T' hl hk hc hr ps (State.init V)

end

variable [DecidableEq κ]

theorem map_self {ε A : Type} (x : Out ε A) : x.map (fun a => a) = x := by cases x <;> rfl

theorem read_map (E : Env τ α κ) (o : Order κ) (k : Key) (m : Meta τ) :
    Key.read { E with order := o } k m = (Key.read { E with order := written } k m).map (shuffle o k) := by
  cases k with
  | countries =>
    cases m with
    | path n => rfl
    | nameValue n e => rfl
    | list n t =>
      simp only [Key.read, metaCountries, map_of_bind, map_of_map]
      rfl
  | _ => exact (map_self _).symm

theorem readKey_map (E : Env τ α κ) (other : Meta τ → String) (o : Order κ) (k : Key) (m : Meta τ) :
    Diag.readKey { E with order := o } other k m = (Diag.readKey { E with order := written } other k m).map (shuffle o k) := by
  cases k with
  | countries =>
    cases m with
    | path n => rfl
    | nameValue n e => rfl
    | list n t =>
      simp only [Diag.readKey, Diag.metaCountries, map_of_bind, map_of_map]
      rfl
  | _ => exact (map_self _).symm

theorem table_map (E : Env τ α κ) (o : Order κ) (names : List (String × Key)) (m : Meta τ) :
    Attr.params E.syn (Attr.table { E with order := o } names) m =
      (Attr.params E.syn (Attr.table { E with order := written } names) m).map (shuffleAll (shuffle o)) :=
  params_map (shuffle o) E.syn (Attr.table { E with order := written } names) (Attr.table { E with order := o } names) rfl rfl
    (fun k m => read_map E o k m) m

theorem diag_table_map (E : Env τ α κ) (other : Meta τ → String) (o : Order κ) (v : Validator) (m : Meta τ) :
    Diag.params E.syn other (Diag.table { E with order := o } other v) m =
      (Diag.params E.syn other (Diag.table { E with order := written } other v) m).map (shuffleAll (shuffle o)) :=
  diag_params_map (shuffle o) E.syn other (Diag.table { E with order := written } other v) (Diag.table { E with order := o } other v)
    rfl rfl rfl (fun k m => readKey_map E other o k m) m

omit [DecidableEq κ] in
theorem all_ne (o : Order κ) (s : State (Key.Val α κ)) (k : Key) (h : k ≠ .countries) : shuffleAll (shuffle o) s k = s k := by
  cases k with
  | countries => exact absurd rfl h
  | _ => exact Option.map_id'

omit [DecidableEq κ] in
theorem finish_map (o : Order κ) (v : Validator) (s : State (Key.Val α κ)) :
    Diag.finish v (shuffleAll (shuffle o) s) = Diag.finish v s := by
  cases v <;> simp [Diag.finish, all_ne]

/-- The plan of an item with its countries in another order. -/
def reorder (o : Order κ) : Plan φ κ → Plan φ κ
  | .phone a => .phone { a with countries := o.list a.countries }
  | p => p

theorem phone_map (E : Env τ α κ) (o : Order κ) (m : Meta τ) : phoneAttribute { E with order := o } m =
    (phoneAttribute { E with order := written } m).map fun a => { a with countries := o.list a.countries } := by
  have hn : o.list [] = [] := (o.perm []).eq_nil
  simp only [phoneAttribute, table_map E o, map_of_map]
  congr 1
  funext s
  rw [all_ne o s .serde (by decide), all_ne o s .rocket (by decide)]
  simp only [PhoneAttribute.mk.injEq, and_true]
  unfold shuffleAll
  cases s Key.countries with
  | none => exact hn.symm
  | some v => rfl

section
variable (E : Env τ α κ) (o : Order κ) (m : Meta τ)

theorem base_same : baseAttribute { E with order := o } m = baseAttribute { E with order := written } m := by
  simp [baseAttribute, table_map E o, map_of_map, all_ne]
theorem basic_same : basicAttribute { E with order := o } m = basicAttribute { E with order := written } m := by
  simp [basicAttribute, table_map E o, map_of_map, all_ne]
theorem url_same : urlAttribute { E with order := o } m = urlAttribute { E with order := written } m := by
  simp [urlAttribute, table_map E o, map_of_map, all_ne]
theorem ip_same : ipAttribute { E with order := o } m = ipAttribute { E with order := written } m := by
  simp [ipAttribute, table_map E o, map_of_map, all_ne]
theorem range_same : rangeAttribute { E with order := o } m = rangeAttribute { E with order := written } m := by
  simp [rangeAttribute, table_map E o, map_of_map, all_ne]
theorem utf8_same : utf8Attribute { E with order := o } m = utf8Attribute { E with order := written } m := by
  simp [utf8Attribute, table_map E o, map_of_map, all_ne]
theorem bit_same : bitAttribute { E with order := o } m = bitAttribute { E with order := written } m := by
  simp [bitAttribute, table_map E o, map_of_map, all_ne]
theorem byte_same : byteAttribute { E with order := o } m = byteAttribute { E with order := written } m := by
  simp [byteAttribute, table_map E o, map_of_map, all_ne]
theorem domain_same : domainAttribute { E with order := o } m = domainAttribute { E with order := written } m := by
  simp [domainAttribute, table_map E o, map_of_map, all_ne]
theorem email_same : emailAttribute { E with order := o } m = emailAttribute { E with order := written } m := by
  simp [emailAttribute, table_map E o, map_of_map, all_ne]
theorem host_same : hostAttribute { E with order := o } m = hostAttribute { E with order := written } m := by
  simp [hostAttribute, table_map E o, map_of_map, all_ne]
theorem length_same : lengthAttribute { E with order := o } m = lengthAttribute { E with order := written } m := by
  simp [lengthAttribute, table_map E o, bind_of_map, all_ne]
theorem hex_same (c : Char) : hexAttribute c { E with order := o } m = hexAttribute c { E with order := written } m := by
  simp [hexAttribute, table_map E o, map_of_map, all_ne]
theorem number_same : numberAttribute { E with order := o } m = numberAttribute { E with order := written } m := by
  simp [numberAttribute, table_map E o, map_of_map, all_ne]
theorem regex_same : regexAttribute { E with order := o } m = regexAttribute { E with order := written } m := by
  simp [regexAttribute, table_map E o, bind_of_map, all_ne]
end

omit [DecidableEq κ] in
theorem env_order (M : Macro τ φ κ) (o : Order κ) (num : NumTy α) :
    ({ M with order := o } : Macro τ φ κ).env num = { M.env num with order := o } := rfl

omit [DecidableEq κ] in
theorem env128_order (M : Macro τ φ κ) (o : Order κ) :
    ({ M with order := o } : Macro τ φ κ).env128 = { M.env128 with order := o } := rfl

theorem lift_map {A B : Type} (x : Out AttrError A) (f : A → B) : Derive.lift (x.map f) = (Derive.lift x).map f := by
  cases x <;> rfl

theorem domainConfig_same (E : Env τ α κ) (o : Order κ) (m : Meta τ) :
    domainConfig { E with order := o } m = domainConfig { E with order := written } m := by
  simp only [domainConfig, domain_same E o]

theorem emailConfig_same (E : Env τ α κ) (o : Order κ) (m : Meta τ) :
    emailConfig { E with order := o } m = emailConfig { E with order := written } m := by
  simp only [emailConfig, email_same E o]

theorem numberConfig_same (E : Env τ α κ) (o : Order κ) (m : Meta τ) :
    numberConfig { E with order := o } m = numberConfig { E with order := written } m := by
  simp only [numberConfig, number_same E o]

theorem handler_map (M : Macro τ φ κ) (o : Order κ) (v : Validator) (d : Data) (m : Meta τ) :
    handler { M with order := o } v d m = (handler { M with order := written } v d m).map (reorder o) := by
  cases v
  case phone =>
    simp only [handler, env128_order, phone_map M.env128 o, lift_map, bind_of_map, map_of_bind, (o.perm _).length_eq]
    rfl
  case domain =>
    simp only [handler, domainHandler, env128_order, domainConfig_same M.env128 o, domain_same M.env128 o]
    split <;> simp only [map_of_bind, Out.map_ok, Out.map_err, reorder]
  case email =>
    simp only [handler, emailHandler, env128_order, emailConfig_same M.env128 o, email_same M.env128 o]
    split <;> simp only [map_of_bind, Out.map_ok, Out.map_err, reorder]
  case host =>
    simp only [handler, hostHandler, env128_order, host_same M.env128 o]
    cases d <;> simp only [map_of_bind, Out.map_ok, Out.map_err, reorder]
  case ip =>
    simp only [handler, ipHandler, env128_order, ip_same M.env128 o]
    cases d <;> simp only [map_of_bind, Out.map_ok, Out.map_err, reorder]
  case ipv4 =>
    simp only [handler, ipHandler, env128_order, ip_same M.env128 o]
    cases d <;> simp only [map_of_bind, Out.map_ok, Out.map_err, reorder]
  case ipv6 =>
    simp only [handler, ipHandler, env128_order, ip_same M.env128 o]
    cases d <;> simp only [map_of_bind, Out.map_ok, Out.map_err, reorder]
  case number =>
    simp only [handler, numberHandler]
    split
    · split
      · simp only [env_order, numberConfig_same _ o]
        simp only [map_of_bind, Out.map_ok, reorder]
      · rfl
    · rfl
  case signed_integer =>
    simp only [handler, intHandler]
    split
    · split
      · simp only [env_order, range_same _ o]
        simp only [map_of_bind, Out.map_ok, reorder]
      · rfl
    · rfl
  case unsigned_integer =>
    simp only [handler, intHandler]
    split
    · split
      · simp only [env_order, range_same _ o]
        simp only [map_of_bind, Out.map_ok, reorder]
      · rfl
    · rfl
  all_goals
    simp only [handler, env128_order, base_same _ o, basic_same _ o, url_same _ o, utf8_same _ o, bit_same _ o, byte_same _ o, length_same _ o,
      macAttribute, uuidAttribute, hex_same _ o, regex_same _ o]
    simp only [map_of_bind, Out.map_ok, reorder]

/-- The whole macro: another order of the set permutes the countries in the plan, and does nothing else. -/
theorem derive_map (M : Macro τ φ κ) (o : Order κ) (ast : Input τ) :
    derive { M with order := o } ast = (derive { M with order := written } ast).map (reorder o) := by
  simp only [derive, map_of_bind]
  refine bind_congr' _ _ _ fun used => ?_
  cases used with
  | none => rfl
  | some x => exact handler_map M o x.1 ast.data x.2

end Verif.Proof.Reproducible
