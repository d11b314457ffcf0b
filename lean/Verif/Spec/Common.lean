import Verif.Model.Common
/-!
# Specification vocabulary for common properties, descriptions and titles

Independent of the functions of the model, except for the lists of prefixes and terms, which are data of the code.
-/

namespace Csvw.Spec

/-- `o` is an object nested somewhere in the JSON value, where values of `@id` and `@language` are not looked into. -/
inductive Nested : List (Str × J) → J → Prop where
  | here (m : List (Str × J)) : Nested m (.obj m)
  | item {o m : List (Str × J)} {k : Str} {v : J} :
      (k, v) ∈ m → k ≠ "@id".toList → k ≠ "@language".toList → Nested o v → Nested o (.obj m)
  | elem {o : List (Str × J)} {l : List J} {v : J} : v ∈ l → Nested o v → Nested o (.arr l)

/-- `s` is an absolute URL. -/
def AbsoluteUrl (s : Str) : Prop := "http://".toList <+: s ∨ "https://".toList <+: s

/-- `s` is a prefix of the context, or a prefixed name. -/
def PrefixedName (s : Str) : Prop := ∃ p ∈ namespaces, s = p.1.toList ∨ ∃ r, s = p.1.toList ++ ':' :: r

/-- The restrictions on one object of a common property. -/
structure ObjectOk (m : List (Str × J)) : Prop where
  /-- Only the four `@`-properties are used. -/
  atKeys : ∀ k v, (k, v) ∈ m → ∀ r, k = '@' :: r →
    r = "id".toList ∨ r = "language".toList ∨ r = "type".toList ∨ r = "value".toList
  /-- `@value` is alone, or with one of `@language` and `@type`, and then it is a string, boolean or integer. -/
  value : ∀ v, ("@value".toList, v) ∈ m → m = [("@value".toList, v)] ∨
    (∃ w, m.Perm [("@value".toList, v), ("@language".toList, w)] ∨ m.Perm [("@value".toList, v), ("@type".toList, w)]) ∧
    ((∃ s, v = .str s) ∨ (∃ b, v = .bool b) ∨ (∃ i, v = .int i))
  /-- `@language` is only used with `@value`. -/
  language : ∀ w, ("@language".toList, w) ∈ m → ∃ v, ("@value".toList, v) ∈ m
  /-- An `@id` does not start with an underscore (like blank nodes). -/
  id : ∀ s, ("@id".toList, .str s) ∈ m → ∀ r, s ≠ '_' :: r
  /-- `@type` is an object, a list, or a string which is a URL, a prefixed name or a CSVW term. -/
  type : ∀ t, ("@type".toList, t) ∈ m → (∃ l, t = .arr l) ∨ (∃ o, t = .obj o) ∨
    ∃ s, t = .str s ∧ (AbsoluteUrl s ∨ PrefixedName s ∨ ∃ w ∈ csvwTerms, s = w.toList)

/-- All objects of the JSON value, at all depths, have no duplicate keys (as for all Python dicts). -/
inductive DistinctKeys : J → Prop where
  | null : DistinctKeys .null
  | bool b : DistinctKeys (.bool b)
  | int i : DistinctKeys (.int i)
  | flt r : DistinctKeys (.flt r)
  | str s : DistinctKeys (.str s)
  | arr {l} : (∀ v ∈ l, DistinctKeys v) → DistinctKeys (.arr l)
  | obj {m} : (m.map Prod.fst).Nodup → (∀ k v, (k, v) ∈ m → DistinctKeys v) → DistinctKeys (.obj m)

/-- `j'` is `j` where `@id`s which are not strings are `null` and `@language`s which are not language tags are left out. -/
inductive Cleaned (tag : Str → Prop) : J → J → Prop where
  | null : Cleaned tag .null .null
  | bool b : Cleaned tag (.bool b) (.bool b)
  | int i : Cleaned tag (.int i) (.int i)
  | flt r : Cleaned tag (.flt r) (.flt r)
  | str s : Cleaned tag (.str s) (.str s)
  | nil : Cleaned tag (.arr []) (.arr [])
  | cons {v v' : J} {l l' : List J} : Cleaned tag v v' → Cleaned tag (.arr l) (.arr l') →
      Cleaned tag (.arr (v :: l)) (.arr (v' :: l'))
  | empty : Cleaned tag (.obj []) (.obj [])
  | idStr {s : Str} {m m' : List (Str × J)} : Cleaned tag (.obj m) (.obj m') →
      Cleaned tag (.obj (("@id".toList, .str s) :: m)) (.obj (("@id".toList, .str s) :: m'))
  | idOther {v : J} {m m' : List (Str × J)} : (∀ s, v ≠ .str s) → Cleaned tag (.obj m) (.obj m') →
      Cleaned tag (.obj (("@id".toList, v) :: m)) (.obj (("@id".toList, .null) :: m'))
  | langStr {s : Str} {m m' : List (Str × J)} : tag s → Cleaned tag (.obj m) (.obj m') →
      Cleaned tag (.obj (("@language".toList, .str s) :: m)) (.obj (("@language".toList, .str s) :: m'))
  | langOther {v : J} {m m' : List (Str × J)} : (∀ s, v = .str s → ¬ tag s) → Cleaned tag (.obj m) (.obj m') →
      Cleaned tag (.obj (("@language".toList, v) :: m)) (.obj m')
  | item {k : Str} {v v' : J} {m m' : List (Str × J)} : k ≠ "@id".toList → k ≠ "@language".toList →
      Cleaned tag v v' → Cleaned tag (.obj m) (.obj m') →
      Cleaned tag (.obj ((k, v) :: m)) (.obj ((k, v') :: m'))

end Csvw.Spec

namespace Csvw.Spec

/-- The three kinds of properties of a description. -/
def AtProperty (k : Str) : Prop := ∃ r, k = '@' :: r
def CommonProperty (k : Str) : Prop := ¬ AtProperty k ∧ ':' ∈ k
def OwnProperty (k : Str) : Prop := ¬ AtProperty k ∧ ':' ∉ k

instance : DecidablePred AtProperty := fun k => match k with
  | [] => isFalse (by rintro ⟨r, h⟩; cases h)
  | c :: r => if h : c = '@' then isTrue ⟨r, by rw [h]⟩ else isFalse (by rintro ⟨r', h'⟩; cases h'; exact h rfl)
instance : DecidablePred CommonProperty := fun _ => inferInstanceAs (Decidable (_ ∧ _))
instance : DecidablePred OwnProperty := fun _ => inferInstanceAs (Decidable (_ ∧ _))

/-- Every object nested in `v` is as demanded. -/
def CommonValueOk (v : J) : Prop := ∀ o, Nested o v → ObjectOk o

end Csvw.Spec
