import Verif.Model.Files
/-!
# A table which is described on its own

Model of what `CSVW.tablegroup` (`/repo/src/csvw/metadata.py` 1714–1717) does with a `Table` object which is not in a group: it is put into a
new group whose `@base` is the base of the table. This sets the parent of the table (1493–1494), so that it inherits from the group, and its
base is computed anew (1120–1137).
-/

namespace Csvw

/-- A `Table` object with `_parent = None`: its description and `_fname`. -/
structure FTable where
  desc : TableD
  fname : Option PPath := none

/-- The `@base` in the `@context` of a description, if it is not empty (1125–1128, 1130). Simplification as for `baseOf`. -/
def ctxBase (own : List (Str × J)) : Res (Option Str) :=
  match Dict.get "context".toList own with
  | some (.arr l) => match contextBase l with
    | some (.str c) => .ok (if c = [] then none else some c)
    | some _ => .error .notImplemented
    | none => .ok none
  | some (.str _) | some (.obj _) | none => .ok none
  | _ => .error .notImplemented

/-- `Link(c).resolve(b)` (300–311) as a base: a path is the base as it is. -/
def resolveBase (fx : FExt) (d : Disk) (c : Str) : LinkBase → LinkBase
  | .dir p => if isUrl c then .url c else .dir ((if d.isDir p then p else p.parent).join c)
  | .none => .url c
  | .url s => .url (if s = [] then c else fx.urljoin s c)

/-- `base` (1120–1137) of a table whose group has the `@base` `b` (which may be `None`, a string or a path). -/
def regroup (fx : FExt) (d : Disk) (own : List (Str × J)) (b : LinkBase) : Res LinkBase :=
  match ctxBase own with
  | .error e => .error e
  | .ok none => .ok b
  | .ok (some c) => .ok (resolveBase fx d c b)

/-- `list(t.iterdicts())` for a table with the base `b`. -/
def Table.readRowsAt (ext : Ext) (x : MExt) (fx : FExt) (d : Disk) (b : LinkBase) (t : Table) : Res (List RowDict) :=
  match d.read fx (resolveLink fx d t.url b) with
  | .error e => .error e
  | .ok text => match (t.iterdicts ext x true false text).err with
    | some e => .error e
    | none => .ok ((t.iterdicts ext x true false text).rows.map Prod.snd)

/-- The properties of the new group (1716–1717): its `@base`. (A path is no JSON value; it is not among the `@`-properties here.) -/
def groupProps : LinkBase → Descr
  | .url s => { atProps := [("base".toList, .str s)] }
  | _ => {}

namespace FTable

/-- The table as used for reading while it has no parent. -/
def table (t : FTable) : Table :=
  { props := t.desc.like.props, schema := t.desc.like.schema, dialect := t.desc.like.dialect, url := t.desc.like.url.getD [] }

/-- The group (1716–1717) if the base of the table is `b`. -/
def groupAt (t : FTable) (b : LinkBase) : GroupD := { like := { props := groupProps b }, tables := [t.desc] }

/-- `t.base` after `tablegroup` was used `n` times. -/
def baseAfter (fx : FExt) (d : Disk) (t : FTable) : Nat → Res LinkBase
  | 0 => baseOf fx t.desc.like.props.atProps none t.fname
  | n + 1 => match baseAfter fx d t n with
    | .error e => .error e
    | .ok b => regroup fx d t.desc.like.props.atProps b

/-- `list(t.iterdicts())` after `tablegroup` was used `n` times. -/
def readAfter (ext : Ext) (x : MExt) (fx : FExt) (d : Disk) (t : FTable) : Nat → Res (List RowDict)
  | 0 => match t.baseAfter fx d 0 with
    | .error e => .error e
    | .ok b => t.table.readRowsAt ext x fx d b
  | n + 1 => match t.baseAfter fx d n, t.baseAfter fx d (n + 1) with
    | .ok b, .ok b' => ((t.groupAt b).table t.desc).readRowsAt ext x fx d b'
    | .error e, _ | _, .error e => .error e

end FTable
end Csvw
