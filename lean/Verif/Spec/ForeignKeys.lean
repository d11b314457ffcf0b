import Verif.Model.TableGroup
/-!
# Specification of foreign keys

What it means that a foreign key of a table group refers to tables and columns, and that the data satisfy it.
-/

namespace Csvw.Spec
open Csvw

/-- `a` is the last element of the list with property `p`. -/
def LastSuch {α : Type} (p : α → Prop) (l : List α) (a : α) : Prop :=
  ∃ before after, l = before ++ a :: after ∧ p a ∧ ∀ w ∈ after, ¬ p w

/-- `a` is the first element of the list with property `p`. -/
def FirstSuch {α : Type} (p : α → Prop) (l : List α) (a : α) : Prop :=
  ∃ before after, l = before ++ a :: after ∧ p a ∧ ∀ w ∈ before, ¬ p w

/-- The column has the name as first title or as property URL. -/
def TitleOrUrl (name : Str) (c : Column) : Prop :=
  NatLang.first c.titles = some name ∨ c.props.propertyUrl = .tmpl name

/-- `name` refers to column `c`: by its header or else, by title or property URL. -/
def RefersTo (s : Schema) (name : Str) (c : Column) : Prop :=
  LastSuch (fun c => c.header = name) s.columns c ∨
  ((∀ c ∈ s.columns, c.header ≠ name) ∧ FirstSuch (TitleOrUrl name) s.columns c)

/-- In strict mode, `name` must be the header of a column with a name. -/
def RefersToStrict (s : Schema) (name : Str) (c : Column) : Prop :=
  LastSuch (fun c => c.header = name) s.columns c ∧ ∃ n, c.name = some n ∧ n ≠ []

/-- The table with the given URL: the last one, if there are several. -/
def TableNamed (g : TableGroup) (url : Str) (t : Table) : Prop := LastSuch (fun t => t.url = url) g.tables t

/-- Both columns have a datatype (of their own, not inherited), with different base. -/
def DifferentBase (a b : Column) : Prop :=
  ∃ d e, a.props.datatype = .dtype d ∧ b.props.datatype = .dtype e ∧ d.base ≠ e.base

/-- `fk` is a foreign key of table `t` of the group (which references a table, not a schema). -/
def IsForeignKey (g : TableGroup) (t : Table) (fk : ForeignKey) : Prop :=
  t ∈ g.tables ∧ fk ∈ t.schema.foreignKeys ∧ fk.schemaReference = none

/-- What can be wrong with a foreign key. `refers` says how columns are referred to. -/
inductive Problem (refers : Schema → Str → Column → Prop) (g : TableGroup) (t : Table) (fk : ForeignKey) : Prop where
  | table (r : Str) (hr : fk.resource = some r) (h : ∀ u ∈ g.tables, u.url ≠ r)
  | number (r : Str) (hr : fk.resource = some r) (u : Table) (hu : TableNamed g r u)
      (h : fk.refColumns.length ≠ fk.columnReference.length)
  | refColumn (r : Str) (hr : fk.resource = some r) (u : Table) (hu : TableNamed g r u) (a b : Str)
      (hab : (a, b) ∈ fk.refColumns.zip fk.columnReference) (h : ∀ c, ¬ refers u.schema a c)
  | column (r : Str) (hr : fk.resource = some r) (u : Table) (hu : TableNamed g r u) (a b : Str)
      (hab : (a, b) ∈ fk.refColumns.zip fk.columnReference) (h : ∀ c, ¬ refers t.schema b c)
  | datatype (r : Str) (hr : fk.resource = some r) (u : Table) (hu : TableNamed g r u) (a b : Str)
      (hab : (a, b) ∈ fk.refColumns.zip fk.columnReference) (c d : Column) (hc : refers u.schema a c) (hd : refers t.schema b d)
      (h : DifferentBase c d)

end Csvw.Spec
