import Verif.Model.Files
/-!
# Expanding URI templates

Model of `Link.resolve` and `TableLike.expand` in `/repo/src/csvw/metadata.py` 300–311, 1139–1177. Joining URLs
(`urllib.parse.urljoin`) and expanding templates (`uritemplate`) are external functions.
-/

namespace Csvw

/-- The result of `Link.resolve`: a string, or a `pathlib.Path`. -/
inductive XVal where
  | str (s : Str)
  | path (p : PPath)
  deriving DecidableEq, Repr

/-- `TableLike.base` as value. -/
def LinkBase.val : LinkBase → Option XVal
  | .none => Option.none
  | .url s => some (.str s)
  | .dir p => some (.path p)

/-- `Link(s).resolve(base)` (300–311). `urljoin` returns `s` if there is no base, or if it is empty. -/
def resolveX (fx : FExt) (d : Disk) (s : Str) : Option XVal → XVal
  | some (.path p) => if isUrl s then .str s else .path ((if d.isDir p then p else p.parent).join s)
  | some (.str b) => .str (if b = [] then s else fx.urljoin b s)
  | none => .str s

/-- `URITemplate(u).expand(_row=…, _name=…, **row)`: the template, the row, `_row` and `_name`. -/
abbrev TmplExpand := Str → RowDict → Nat → Option Str → Res Str

/-- The names of arguments which cannot be given a second time in the call of `expand` (1165–1169). -/
def takenNames : List Str := ["self".toList, "_row".toList, "_name".toList]

/-- A URL as QName (1172–1176). -/
def abbreviate (s : Str) : Str :=
  match namespaces.find? fun p => p.2.toList.isPrefixOf s with
  | some p => Py.replace p.2.toList (p.1.toList ++ [':']) s
  | none => s

/-- `self.url.resolve(self.base) if self.url else self.base` (1170). -/
def locationX (fx : FExt) (d : Disk) (base : LinkBase) : Option Str → Option XVal
  | some u => some (resolveX fx d u base.val)
  | none => base.val

/-- `expand(tmpl, row, _row, _name, qname)` (1139–1177) for a table or group with this `base` and `url`; the template is a string, or `INVALID`
(`none`). -/
def expandX (fx : FExt) (tx : TmplExpand) (d : Disk) (base : LinkBase) (url : Option Str) (tmpl : Option Str) (row : RowDict) (rownum : Nat)
    (name : Option Str) (qname : Bool) : Res XVal :=
  match tmpl with
  | none => match url with
    | some u => .ok (resolveX fx d u base.val)
    | none => .error .attributeError
  | some u =>
    let res : Res XVal := match namespaces.find? fun p => (p.1.toList ++ [':']).isPrefixOf u with
      | some p => .ok (.str (p.2.toList ++ (Py.split [':'] u).getD 1 []))
      | none =>
        if (Dict.keys row).any takenNames.contains then .error .typeError
        else match tx u row rownum name with
          | .error e => .error e
          | .ok s => .ok (resolveX fx d s (locationX fx d base url))
    match res with
    | .ok (.str s) => .ok (.str (if qname then abbreviate s else s))
    | r => r

end Csvw
