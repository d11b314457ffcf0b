import Verif.Model.Common
/-!
# Locating metadata

Model of `CSVW.locate_metadata` (`/repo/src/csvw/metadata.py` 1719–1781). The network, the file system, URL resolution and URI
template expansion are external.
-/

namespace Csvw.Locate

/-- What the world answers. Every operation may raise an exception (`requests.ConnectionError` etc.). -/
structure World where
  /-- `requests.head(url)` (1738–1740): does the content type say `header=absent`, and the link with relation `describedby`: its
  URL and its type, if it has one. -/
  head : Str → Res (Bool × Option (Str × Option Str))
  /-- `get_json(u)` (218–223) for a URL or file. Invalid JSON: `valueError` (`JSONDecodeError` is a `ValueError`). -/
  getJson : Str → Res J
  /-- `requests.get(u)` (1752): the text, if the status is 200. -/
  text : Str → Res (Option Str)
  /-- `requests.get(u)` (1755–1758): `none` if the status is not 200; `some none` if the text is not JSON. -/
  fetch : Str → Res (Option (Option J))
  /-- `Link(s).resolve(url)` (300–312) for a URL, i.e. `urljoin(url, s)`. -/
  resolve : Str → Str → Str
  /-- `URITemplate(line).expand(url=url)` (1755). -/
  expand : Str → Str → Res Str
  /-- `pathlib.Path(p).exists()` (1770). -/
  exists_ : Str → Bool
  /-- `str(pathlib.Path(p))`, `pathlib.Path(p).name` (1779–1781). -/
  path : Str → Str × Str

/-- `u.split('/')[-1]` (1730). -/
def lastPart (u : Str) : Str := (Py.split ['/'] u).getLast?.getD []

/-- `table['url'].split('/')[-1]` (1730). -/
def tableName (table : J) : Res Str :=
  match table with
  | .obj m => match Dict.get "url".toList m with
    | none => .error .keyError
    | some (.str u) => .ok (lastPart u)
    | some _ => .error .attributeError
  | _ => .error .typeError

/-- The loop in `describes` (1727–1732). -/
def anyDescribes (url : Str) : List J → Res Bool
  | [] => .ok false
  | t :: r => match tableName t with
    | .error e => .error e
    | .ok n => if lastPart url = n then .ok true else anyDescribes url r

/-- `md.get('tables', [md])` as an iterable: iterating over an object or a string gives strings. -/
def tablesOf (md : J) : Res (List J) :=
  match md with
  | .obj m => match Dict.get "tables".toList m with
    | none => .ok [md]
    | some (.arr l) => .ok l
    | some (.obj o) => .ok ((Dict.keys o).map .str)
    | some (.str s) => .ok (s.map fun c => .str [c])
    | some _ => .error .typeError
  | _ => .error .attributeError

/-- `describes(md, url)` (1726–1732). -/
def describes (md : J) (url : Str) : Res Bool :=
  match tablesOf md with
  | .error e => .error e
  | .ok l => anyDescribes url l

/-- The result: the metadata, whether the data has no header, and whether a warning was issued. -/
structure Found where
  md : J
  noHeader : Bool := false
  warned : Bool := false
  deriving DecidableEq, Repr

/-- The media types of metadata (1742–1743). -/
def jsonTypes : List Str := ["application/csvm+json".toList, "application/ld+json".toList, "application/json".toList]

/-- The metadata of the `Link` header (1741–1748): `none` if there is none or it has another type. -/
def linked (w : World) (url : Str) (link : Option (Str × Option Str)) : Res (Option J) :=
  match link with
  | none => .ok none
  | some (_, none) => .error .keyError
  | some (u, some ty) => if ty ∈ jsonTypes then (w.getJson (w.resolve u url)).map some else .ok none

/-- The JSON document at a location (1755–1758, 1763–1764): `none` if there is none. -/
def docAt (w : World) (url line : Str) : Res (Option J) :=
  match w.expand line url with
  | .error e => .error e
  | .ok s => match w.fetch (w.resolve s url) with
    | .error e => .error e
    | .ok r => .ok r.join

/-- The loop over the locations (1754–1764): the metadata, if it was found, and whether there was a warning. -/
def searchLocs (w : World) (url : Str) : List Str → Bool → Res (Option J × Bool)
  | [], warned => .ok (none, warned)
  | line :: r, warned => match docAt w url line with
    | .error e => .error e
    | .ok none => searchLocs w url r warned
    | .ok (some md) => match describes md url with
      | .error e => .error e
      | .ok true => .ok (some md, warned)
      | .ok false => searchLocs w url r true

/-- The default locations (1753). -/
def defaultLocations : Str := "{+url}-metadata.json\ncsv-metadata.json".toList

/-- The site-wide or the default locations (1752–1754). -/
def locations (w : World) (url : Str) : Res (List Str) :=
  match w.text (w.resolve "/.well-known/csvm".toList url) with
  | .error e => .error e
  | .ok t => .ok (Py.split ['\n'] (t.getD defaultLocations))

/-- The minimal description (1772–1781). -/
def minimal (w : World) (url : Str) : J :=
  if isUrl url then .obj [("@context".toList, .str "http://www.w3.org/ns/csvw".toList), ("url".toList, .str url)]
  else .obj [("@context".toList, .str "http://www.w3.org/ns/csvw".toList), ("url".toList, .str (w.path url).2),
    ("@base".toList, .str (w.path url).1)]

/-- The search at the locations, after the `Link` header was no success (1752–1772). -/
def fromLocations (w : World) (url : Str) (noHeader warned : Bool) : Res Found :=
  match locations w url with
  | .error e => .error e
  | .ok lines => match searchLocs w url lines warned with
    | .error e => .error e
    | .ok (some md, b) => .ok ⟨md, noHeader, b⟩
    | .ok (none, b) => .ok ⟨minimal w url, noHeader, b⟩

/-- For a URL (1735–1766). -/
def locateUrl (w : World) (url : Str) : Res Found :=
  match w.head url with
  | .error e => .error e
  | .ok (noHeader, link) => match linked w url link with
    | .error e => .error e
    | .ok none => fromLocations w url noHeader false
    | .ok (some md) => match describes md url with
      | .error e => .error e
      | .ok true => .ok ⟨md, noHeader, false⟩
      | .ok false => fromLocations w url noHeader true

/-- For a local file (1768–1781). -/
def locateFile (w : World) (url : Str) : Res Found :=
  if url ≠ [] ∧ w.exists_ (url ++ "-metadata.json".toList) then
    (w.getJson (url ++ "-metadata.json".toList)).map fun md => ⟨md, false, false⟩
  else .ok ⟨minimal w url, false, false⟩

/-- `CSVW.locate_metadata(url)` (1719–1781), for a string. -/
def locateMetadata (w : World) (url : Str) : Res Found :=
  if isUrl url then locateUrl w url else locateFile w url

end Csvw.Locate
