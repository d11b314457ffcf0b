import Verif.Spec.ForeignKeys
/-!
# Specification of the database schema
-/

namespace Csvw.Spec
open Csvw

/-- The foreign key consists of one column of the table, which is list-valued (it has a separator). -/
def ListValuedKey (t : Table) (fk : ForeignKey) : Prop :=
  ∃ col ∈ t.schema.columns, fk.columnReference = [col.header] ∧ col.props.separator.truthy = true

/-- The foreign key becomes a foreign key in SQL: it references a table (unless that is the table itself and such references are
to be dropped), and is not list-valued. -/
def PlainKey (t : Table) (drop : Bool) (fk : ForeignKey) : Prop :=
  fk.schemaReference = none ∧ ¬ ListValuedKey t fk ∧ ¬ (drop = true ∧ fk.resource = some t.url)

/-- The code point order of strings, `a ≤ b`. -/
def StrLE (a b : Str) : Prop :=
  a <+: b ∨ ∃ p c d a' b', a = p ++ c :: a' ∧ b = p ++ d :: b' ∧ c.toNat < d.toNat

/-- The pairing of columns respects the order of names: whenever a column comes before another one, the column paired with the first
does not come after the one paired with the second. -/
def OrderPreserving (pairs : List (Str × Str)) : Prop :=
  ∀ p ∈ pairs, ∀ q ∈ pairs, p.1 ≠ q.1 → StrLE p.1 q.1 → StrLE p.2 q.2

end Csvw.Spec
