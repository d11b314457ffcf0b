import Verif.Props.C83
import Verif.Props.C65
/-!
# C83, C84: examples for `csvw2datasette` and for tables which are described on their own
-/

namespace Csvw.Props

open Csvw.Spec Csvw.Db Csvw.Table Csvw.Commands

/-- A schema with three columns. -/
def threeColumns : J := .obj [("columns".toList, .arr
  [.obj [("name".toList, .str ['a'])], .obj [("name".toList, .str ['b'])], .obj [("name".toList, .str ['c'])]])]

/-- A document which describes a group with one table. -/
def setDoc : List (Str × J) :=
  [("@context".toList, .str namespaceUrl), ("dc:title".toList, .str "T".toList), ("dc:license".toList, .str "L".toList),
   ("tables".toList, .arr [.obj [("url".toList, .str "t.csv".toList), ("tableSchema".toList, threeColumns)]])]

/-- A document which describes the table on its own; the context may have a `@base`. -/
def soloDoc (ctx : J) : List (Str × J) :=
  [("@context".toList, ctx), ("dc:title".toList, .str "T".toList), ("url".toList, .str "t.csv".toList),
   ("tableSchema".toList, threeColumns)]

/-- The group which is read. -/
def setGroup : GroupD :=
  { like := { props := { common := [("dc:title".toList, .str "T".toList), ("dc:license".toList, .str "L".toList)],
                         atProps := [("context".toList, .str namespaceUrl)] } }
    tables := [{ like := { url := some "t.csv".toList, schema := { columns := [{ name := some ['a'], number := 1 },
                                                                                { name := some ['b'], number := 2 },
                                                                                { name := some ['c'], number := 3 }] } } }] }

/-- The table which is read. -/
def soloTable (ctx : J) : TableD :=
  { like := { props := { common := [("dc:title".toList, .str "T".toList)], atProps := [("context".toList, ctx)] }
              url := some "t.csv".toList
              schema := { columns := [{ name := some ['a'], number := 1 }, { name := some ['b'], number := 2 },
                                      { name := some ['c'], number := 3 }] } } }

/-- The rows of the table, as read. -/
def threeRows : List RowDict :=
  [[(['a'], .one (.str ['1'])), (['c'], .one (.str ['2'])), (['b'], .one (.str ['3']))],
   [(['a'], .one (.str ['4'])), (['c'], .one (.str ['5'])), (['b'], .one (.str ['6']))]]

/-- The database with these rows. -/
def threeDb : Database :=
  [threeTable "t.csv".toList [[(['a'], .text ['1']), (['b'], .text ['3']), (['c'], .text ['2'])],
    [(['a'], .text ['4']), (['b'], .text ['6']), (['c'], .text ['5'])]]]

/-- The data. -/
def threeText : Str := "a,c,b\n1,2,3\n4,5,6\n".toList

/-- The table, in a group or not. -/
def threeIn (own : Descr) (group : Option (Descr × Option Dialect)) : Table :=
  { props := own, schema := (threeT []).schema, url := "t.csv".toList, group := group }

theorem three_rows {ext : Ext} {x : MExt} {text : Str} {rows : List (Int × List Str)} (h : DataRows (threeT "t.csv".toList) text rows none)
    (c a c' a' : List (Str × J)) :
    (threeIn { common := c, atProps := a } (some ({ common := c', atProps := a' }, none))).iterdicts ext x true false text =
      iterEvents ext x (threeIn { common := c, atProps := a } (some ({ common := c', atProps := a' }, none))) true false rows none :=
  iterdicts_eq h

theorem threeText_rows : DataRows (threeT "t.csv".toList) threeText
    [(1, [['a'], ['c'], ['b']]), (2, [['1'], ['2'], ['3']]), (3, [['4'], ['5'], ['6']])] none :=
  ⟨_, rfl, by decide +kernel, by decide +kernel⟩

theorem three_db (ext : Ext) (sx : SqlExt) (hr : ∀ db n rows r, sx.refuse db n rows r = false) :
    Db.write ext sx nameTranslator false [threeSpec "t.csv".toList] [("t.csv".toList, threeRows)] = .ok threeDb := by
  simp [Db.write, createAll, create, badTable, oddTable, oddName, foldName, Char.toLower, ColSpec.check, threeSpec, threeTable, nameTranslator, ColSpec.dbType, Dict.keys, writeTables, writeTable,
    rowLoop, Db.rowStep, pkOf, itemLoop, itemStep, stored, asList, convert, Db.bind, Db.insert, insertIn, insertRows, insertRow, hr, newRow, Dict.get,
    affinity, Dict.has, writeRefs, threeRows, threeDb]
  rfl

section
variable {ext : Ext} {x : MExt} {other : Base → Derived → J → Res Val} {lk : EncLookup} {o : OpenExt} {fx : FExt} {sx : SqlExt}

/-- `csvw2datasette` for a group: the database and the title and license are written. -/
theorem C83_example_datasette (hr : ∀ db n rows r, sx.refuse db n rows r = false) :
    Opened.init ext x other lk o (openWorld setDoc) "d/md.json".toList none = .ok ⟨.group setGroup, false⟩ ∧
    csvw2datasette ext x other lk o (openWorld setDoc) fx sx (threeDisk "t.csv".toList threeText) "d/md.json".toList {} =
      ({ db := some threeDb
         metadata := some (fx.dumps (.obj [("title".toList, .str "T".toList), ("license".toList, .str "L".toList)])) }, none) := by
  have hi : Opened.init ext x other lk o (openWorld setDoc) "d/md.json".toList none = .ok ⟨.group setGroup, false⟩ := rfl
  refine ⟨hi, ?_⟩
  have hs : schema setGroup.group true = .ok [threeSpec "t.csv".toList] := by decide +kernel
  have ht : setGroup.group.tabledict = [("t.csv".toList, threeIn {} (some (setGroup.like.props, none)))] := by decide +kernel
  have hr1 : (threeIn {} (some (setGroup.like.props, none))).readRows ext x fx (threeDisk "t.csv".toList threeText)
      (some ⟨false, [['d'], "md.json".toList]⟩) = .ok threeRows := by
    have h1 : (threeIn {} (some (setGroup.like.props, none))).readRows ext x fx (threeDisk "t.csv".toList threeText)
        (some ⟨false, [['d'], "md.json".toList]⟩) =
        match ((threeIn {} (some (setGroup.like.props, none))).iterdicts ext x true false threeText).err with
        | some e => .error e
        | none => .ok (((threeIn {} (some (setGroup.like.props, none))).iterdicts ext x true false threeText).rows.map Prod.snd) := rfl
    rw [h1, show (threeIn {} (some (setGroup.like.props, none))).iterdicts ext x true false threeText = _ from
      three_rows threeText_rows [] [] _ _]
    rfl
  have hread : FGroup.read ext x fx (threeDisk "t.csv".toList threeText) ⟨setGroup, fileOf "d/md.json".toList⟩ =
      .ok [("t.csv".toList, threeRows)] := by
    unfold FGroup.read
    simp only
    rw [ht]
    simp only [mapRes]
    rw [show fileOf "d/md.json".toList = some ⟨false, [['d'], "md.json".toList]⟩ from by decide +kernel, hr1]
    rfl
  have hw : writeOpened ext x fx sx (threeDisk "t.csv".toList threeText) "d/md.json".toList none (.group setGroup) = (some threeDb, none) := by
    unfold writeOpened writeFromTg
    simp only
    rw [hs, hread]
    simp only
    unfold callWrite
    rw [if_neg (by simp only [Dict.keys, List.map]; decide)]
    exact (C70_written (.inl rfl) threeDb).2 (three_db ext sx hr)
  unfold csvw2datasette
  rw [hi]
  simp only [hw]
  rw [show datasetteMeta (commonProps (.group setGroup)) = [("title".toList, .str "T".toList), ("license".toList, .str "L".toList)] by decide +kernel]

/-- The table, described on its own in `d/md.json`. -/
def soloFile (ctx : J) : FTable := ⟨soloTable ctx, some ⟨false, [['d'], "md.json".toList]⟩⟩

/-- Reading it, if its base is `p`. -/
theorem solo_read (ctx : J) {text : Str} {rows : List (Int × List Str)} {res : List RowDict}
    (hd : DataRows (threeT "t.csv".toList) text rows none) {d : Disk} {p : PPath} (hdir : d.isDir p = true)
    (ht : d.files (p.join "t.csv".toList) = some (.text text))
    (he : ∀ c a c' a', (iterEvents ext x (threeIn { common := c, atProps := a } (some ({ common := c', atProps := a' }, none))) true false
      rows none).err = none ∧ (iterEvents ext x (threeIn { common := c, atProps := a } (some ({ common := c', atProps := a' }, none))) true
      false rows none).rows.map Prod.snd = res) :
    (soloFile ctx).table.readRowsAt ext x fx d (.dir p) = .ok res ∧
    ∀ b, (((soloFile ctx).groupAt b).table (soloFile ctx).desc).readRowsAt ext x fx d (.dir p) = .ok res := by
  have hn : isUrl "t.csv".toList = false := by decide +kernel
  have h1 : ∀ g, NoInherited g → ((soloFile ctx).table.iterdicts ext x true false text).err = none ∧
      ((soloFile ctx).table.iterdicts ext x true false text).rows.map Prod.snd = res ∧
      ((grouped (soloFile ctx).table g).iterdicts ext x true false text).err = none ∧
      ((grouped (soloFile ctx).table g).iterdicts ext x true false text).rows.map Prod.snd = res := by
    rintro g ⟨a, c, rfl⟩
    have h2 := C84_values (ext := ext) (x := x) (t := (soloFile ctx).table) rfl (g := { atProps := a, common := c }) ⟨_, _, rfl⟩ true false text
    have h3 : (grouped (soloFile ctx).table { atProps := a, common := c }).iterdicts ext x true false text = _ :=
      three_rows hd (soloTable ctx).like.props.common (soloTable ctx).like.props.atProps c a
    rw [← h2, h3]
    have h4 := he (soloTable ctx).like.props.common (soloTable ctx).like.props.atProps c a
    exact ⟨h4.1, h4.2, h4.1, h4.2⟩
  constructor
  · unfold Table.readRowsAt
    rw [show (soloFile ctx).table.url = "t.csv".toList from rfl]
    simp only [resolveLink, hn, hdir, Bool.false_eq_true, if_false, if_true, Disk.read, ht]
    obtain ⟨a1, a2, -⟩ := h1 {} ⟨_, _, rfl⟩
    simp only [a1, a2]
  · intro b
    have he : ((soloFile ctx).groupAt b).table (soloFile ctx).desc = grouped (soloFile ctx).table (groupProps b) := rfl
    rw [he]
    unfold Table.readRowsAt
    rw [show (grouped (soloFile ctx).table (groupProps b)).url = "t.csv".toList from rfl]
    simp only [resolveLink, hn, hdir, Bool.false_eq_true, if_false, if_true, Disk.read, ht]
    obtain ⟨-, -, a1, a2⟩ := h1 _ (groupProps_none b)
    simp only [a1, a2]

/-- A context without `@base`: the hypothesis of `C84_unchanged` is met, and the rows are read. -/
theorem C84_example (n : Nat) : NoContextBase (soloFile (.str namespaceUrl)).desc.like.props.atProps ∧
    (soloFile (.str namespaceUrl)).readAfter ext x fx (threeDisk "t.csv".toList threeText) n = .ok threeRows := by
  have h : NoContextBase (soloFile (.str namespaceUrl)).desc.like.props.atProps := by
    constructor
    · intro j hj; cases hj; exact .inl ⟨_, rfl⟩
    · intro l m hj; cases hj
  refine ⟨h, ?_⟩
  rw [C84_unchanged h]
  exact (solo_read (fx := fx) (.str namespaceUrl) threeText_rows (d := threeDisk "t.csv".toList threeText) (p := ⟨false, [['d']]⟩) (by decide +kernel)
    (by decide +kernel) fun _ _ _ _ => ⟨rfl, rfl⟩).1

/-- `csvw2datasette` for a table which is described on its own. -/
theorem C83_example_datasette_table (hr : ∀ db n rows r, sx.refuse db n rows r = false) :
    Opened.init ext x other lk o (openWorld (soloDoc (.str namespaceUrl))) "d/md.json".toList none =
      .ok ⟨.table (soloTable (.str namespaceUrl)), false⟩ ∧
    csvw2datasette ext x other lk o (openWorld (soloDoc (.str namespaceUrl))) fx sx (threeDisk "t.csv".toList threeText) "d/md.json".toList {} =
      ({ db := some threeDb, metadata := some (fx.dumps (.obj [("title".toList, .str "T".toList)])) }, none) := by
  have hi : Opened.init ext x other lk o (openWorld (soloDoc (.str namespaceUrl))) "d/md.json".toList none =
    .ok ⟨.table (soloTable (.str namespaceUrl)), false⟩ := rfl
  refine ⟨hi, ?_⟩
  have hf : fileOf "d/md.json".toList = some ⟨false, [['d'], "md.json".toList]⟩ := by decide +kernel
  have hs : schema ((soloFile (.str namespaceUrl)).groupAt (.dir ⟨false, [['d']]⟩)).group true = .ok [threeSpec "t.csv".toList] := by decide +kernel
  have hb : (soloFile (.str namespaceUrl)).baseAfter fx (threeDisk "t.csv".toList threeText) 0 = .ok (.dir ⟨false, [['d']]⟩) := rfl
  have hw : writeOpened ext x fx sx (threeDisk "t.csv".toList threeText) "d/md.json".toList none (.table (soloTable (.str namespaceUrl))) =
      (some threeDb, none) := by
    unfold writeOpened writeSingle
    simp only
    rw [hf]
    rw [show (⟨soloTable (.str namespaceUrl), some ⟨false, [['d'], "md.json".toList]⟩⟩ : FTable) = soloFile (.str namespaceUrl) from rfl, hb]
    simp only
    rw [hs]
    simp only
    rw [(C84_example (ext := ext) (x := x) (fx := fx) 1).2]
    simp only
    unfold callWrite
    rw [if_neg (by simp only [Dict.keys, List.map]; decide)]
    exact (C70_written (.inl rfl) threeDb).2 (three_db ext sx hr)
  unfold csvw2datasette
  rw [hi]
  simp only [hw]
  rw [show datasetteMeta (commonProps (.table (soloTable (.str namespaceUrl)))) = [("title".toList, .str "T".toList)] by decide +kernel]

/-- A context with the `@base` `x`. -/
def baseContext : J := .arr [.str namespaceUrl, .obj [("@base".toList, .str ['x'])]]

/-- The data in `d`, and another file in `d/x`. -/
def dirAndSub : Disk :=
  ⟨fun p => decide (p = ⟨false, [['d']]⟩) || decide (p = ⟨false, [['d'], ['x']]⟩),
   fun p => if p = ⟨false, [['d'], "t.csv".toList]⟩ then some (.text threeText)
     else if p = ⟨false, [['d'], ['x'], "t.csv".toList]⟩ then some (.text "a,c,b\n".toList) else none⟩

/-- **C84 does not hold if the context has a `@base`**: other rows are read after `tablegroup` was used. -/
theorem C84_violated_example : (soloFile baseContext).readAfter ext x fx dirAndSub 0 = .ok threeRows ∧
    (soloFile baseContext).readAfter ext x fx dirAndSub 1 = .ok [] := by
  have hd : DataRows (threeT "t.csv".toList) "a,c,b\n".toList [(1, [['a'], ['c'], ['b']])] none := ⟨_, rfl, by decide +kernel, by decide +kernel⟩
  have h0 : (soloFile baseContext).baseAfter fx dirAndSub 0 = .ok (.dir ⟨false, [['d']]⟩) := rfl
  have h1 : (soloFile baseContext).baseAfter fx dirAndSub 1 = .ok (.dir ⟨false, [['d'], ['x']]⟩) := rfl
  constructor
  · unfold FTable.readAfter
    rw [h0]
    exact (solo_read baseContext threeText_rows (d := dirAndSub) (p := ⟨false, [['d']]⟩) (by decide +kernel) (by decide +kernel)
      fun _ _ _ _ => ⟨rfl, rfl⟩).1
  · unfold FTable.readAfter
    simp only
    rw [h0, h1]
    exact (solo_read baseContext hd (d := dirAndSub) (p := ⟨false, [['d'], ['x']]⟩) (by decide +kernel) (by decide +kernel)
      fun _ _ _ _ => ⟨rfl, rfl⟩).2 _

/-- `csvw2json` for a group: an object for the table, with an object for each row. **Defect**: columns are identified by position
here, unlike in `csvw2datasette` and `csvw2sqlite` (`C83_example_datasette`, `C81_example`): if the file has the columns in another order than the
schema, the values of `b` and `c` are exchanged. -/
theorem C83_violated_json_order (jx : JsonLd.JExt) :
    csvw2json other lk o (openWorld setDoc) (jsonEnv ext x jx) (fun _ => threeText) "d/md.json".toList =
    .ok (.obj [("dc:title".toList, .json (.str "T".toList)), ("dc:license".toList, .json (.str "L".toList)), ("tables".toList, .list [
      .obj [("url".toList, .json (.str "u".toList)), ("row".toList, .list [
        .obj [("url".toList, .json (.str "u#row=2".toList)), ("rownum".toList, .json (.int 1)), ("describes".toList, .list [
          .obj [(['a'], .prop (.one (.str ['1']))), (['b'], .prop (.one (.str ['2']))), (['c'], .prop (.one (.str ['3'])))]])],
        .obj [("url".toList, .json (.str "u#row=3".toList)), ("rownum".toList, .json (.int 2)), ("describes".toList, .list [
          .obj [(['a'], .prop (.one (.str ['4']))), (['b'], .prop (.one (.str ['5']))), (['c'], .prop (.one (.str ['6'])))]])]])]])]) := by
  have hi : Opened.init ext x other lk o (openWorld setDoc) "d/md.json".toList none = .ok ⟨.group setGroup, false⟩ := rfl
  have hc : ToJson.commentsOf (threeIn {} (some (setGroup.like.props, none))) threeText = [] := by decide +kernel
  have hr : Table.iterdicts ext x (threeIn {} (some (setGroup.like.props, none))) false false threeText =
      { rows := [(2, [(['a'], .one (.str ['1'])), (['b'], .one (.str ['2'])), (['c'], .one (.str ['3']))]),
                 (3, [(['a'], .one (.str ['4'])), (['b'], .one (.str ['5'])), (['c'], .one (.str ['6']))])] } := by
    have h : DataRows (threeIn {} (some (setGroup.like.props, none))) threeText
      [(1, [['a'], ['c'], ['b']]), (2, [['1'], ['2'], ['3']]), (3, [['4'], ['5'], ['6']])] none :=
      ⟨_, rfl, by decide +kernel, by decide +kernel⟩
    exact (iterdicts_eq h).trans rfl
  obtain ⟨t, ht⟩ : ∃ t, setGroup.tables = [t] := ⟨_, rfl⟩
  unfold csvw2json
  rw [show (jsonEnv ext x jx).ext = ext from rfl, show (jsonEnv ext x jx).x = x from rfl, hi]
  simp only
  unfold ToJson.toJson
  rw [show ToJson.commonOf (dataOf ⟨.group setGroup, false⟩) =
      .ok [("dc:title".toList, .str "T".toList), ("dc:license".toList, .str "L".toList)] from rfl,
    show (dataOf ⟨.group setGroup, false⟩).tables = [(setGroup.tables.head (by simp [ht]), threeIn {} (some (setGroup.like.props, none)))] from rfl,
    show (dataOf ⟨.group setGroup, false⟩).noMetadata = false from rfl]
  unfold ToJson.tablesToJson
  rw [if_neg (show ¬ (setGroup.tables.head (by simp [ht])).suppressOutput.truthy = true from by
    rw [show (setGroup.tables.head (by simp [ht])).suppressOutput = (GroupD.tables setGroup)[0].suppressOutput from rfl]; decide)]
  unfold ToJson.tableToJson
  rw [show ToJson.tableHead (jsonEnv ext x jx) (setGroup.tables.head (by simp [ht])) (threeIn {} (some (setGroup.like.props, none))) =
    .ok [("url".toList, .json (.str "u".toList))] from rfl, hc]
  rw [show (jsonEnv ext x jx).ext = ext from rfl, show (jsonEnv ext x jx).x = x from rfl, hr]
  rfl

end

end Csvw.Props
