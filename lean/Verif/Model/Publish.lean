import Mathlib.Data.Rat.Defs
import Mathlib.Data.List.Basic
import Mathlib.Data.Fin.Basic

/-!
# Model of the publication of results

`scenarioplanner/converters/sheets.py` and `scenarioplanner/linkingapi/url_generator.py`: the upload of tables to a
spreadsheet, and the link to a report on it.  The spreadsheet service is modelled by its effects on the sheets of
one spreadsheet: titles are unique, a spreadsheet has at least one sheet, a batch of requests is applied as a whole
or not at all.  How the service picks identifiers of sheets and how it reads what is typed into a cell
(`USER_ENTERED`) are parameters.  Authentication is not modelled.
-/

namespace Verif.Publish

/-- A value of a table. -/
inductive Val where
  | num (q : ℚ)
  | nan
  | inf
  | negInf
  | text (s : String)
  | none
  deriving DecidableEq

/-- `v.replace([np.inf, -np.inf, np.nan], None)`, `scenarioplanner/converters/sheets.py:110-112`. -/
def clean : Val → Val
  | .nan => .none
  | .inf => .none
  | .negInf => .none
  | v => v

/-- A data frame: the names of the columns, and the rows. -/
structure Table where
  columns : List String
  rows : List (List Val)

/-- One sheet of a spreadsheet. -/
structure Sheet where
  id : ℕ
  title : String
  cells : List (List Val)

/-- What can go wrong with a request. -/
inductive Err where
  | titleExists
  | noSuchSheet
  | lastSheet
  deriving DecidableEq

/-- A request, `scenarioplanner/converters/sheets.py:113-126`. -/
inductive Request where
  | add (title : String)
  | delete (id : ℕ)

/-- The service. -/
structure Service where
  /-- The identifier of a new sheet. -/
  newId : List Sheet → ℕ
  /-- What a cell shows when a value is entered. -/
  enter : Val → Val
  /-- The title of the sheet of a new spreadsheet, whose identifier is `_DEFAULT_SHEET_ID`. -/
  defaultTitle : String

/-- One request; the reply has the title and identifier of a sheet that was added. -/
def Service.request (S : Service) (sheets : List Sheet) : Request → Except Err (List Sheet × Option (String × ℕ))
  | .add t =>
    if t ∈ sheets.map Sheet.title then .error .titleExists
    else .ok (sheets ++ [⟨S.newId sheets, t, []⟩], some (t, S.newId sheets))
  | .delete i =>
    if i ∉ sheets.map Sheet.id then .error .noSuchSheet
    else if sheets.length = 1 then .error .lastSheet
    else .ok (sheets.filter fun s => s.id ≠ i, none)

/-- A batch of requests with its replies. -/
def Service.batch (S : Service) : List Request → List Sheet → Except Err (List Sheet × List (Option (String × ℕ)))
  | [], sheets => .ok (sheets, [])
  | r :: rs, sheets =>
    match S.request sheets r with
    | .error e => .error e
    | .ok (sheets', reply) =>
      match S.batch rs sheets' with
      | .error e => .error e
      | .ok (sheets'', replies) => .ok (sheets'', reply :: replies)

/-- `values().batchUpdate`: each range names a sheet by its title and starts at its first cell. -/
def Service.fill (S : Service) : List (String × List (List Val)) → List Sheet → Except Err (List Sheet)
  | [], sheets => .ok sheets
  | (t, grid) :: ds, sheets =>
    if t ∈ sheets.map Sheet.title then
      S.fill ds (sheets.map fun s => if s.title = t then { s with cells := grid.map (List.map S.enter) } else s)
    else .error .noSuchSheet

/-- The values of a table, `scenarioplanner/converters/sheets.py:117-122`. -/
def grid (t : Table) : List (List Val) := t.columns.map Val.text :: t.rows

/-- The table without values that are not finite, `scenarioplanner/converters/sheets.py:110-112`. -/
def cleanTable (t : Table) : Table := { t with rows := t.rows.map (List.map clean) }

/-- `Spreadsheet`, `scenarioplanner/converters/sheets.py:62-74`; the address as bytes. -/
structure Spreadsheet where
  url : List (Fin 256)
  id : List Char
  tabs : List (String × ℕ)

/-- The requests of an upload, `scenarioplanner/converters/sheets.py:104-126`. -/
def requests (data : List (String × Table)) : List Request := data.map (fun d => .add d.1) ++ [.delete 0]

/-- The identifiers of the tabs, `scenarioplanner/converters/sheets.py:136-145`. -/
def tabIds (replies : List (Option (String × ℕ))) : List (String × ℕ) := replies.filterMap fun r => r

/-- `upload_to_gsheet`, `scenarioplanner/converters/sheets.py:77-156`: the sheets of the new spreadsheet afterwards,
and the result. -/
def upload (S : Service) (url : List (Fin 256)) (id : List Char) (data : List (String × Table)) :
    List Sheet × Except Err Spreadsheet :=
  let created : List Sheet := [⟨0, S.defaultTitle, []⟩]
  let data := data.map fun d => (d.1, cleanTable d.2)
  match S.batch (requests data) created with
  | .error e => (created, .error e)
  | .ok (sheets, replies) =>
    match S.fill (data.map fun d => (d.1, grid d.2)) sheets with
    | .error e => (sheets, .error e)
    | .ok sheets' => (sheets', .ok ⟨url, id, tabIds replies⟩)

/-! ## The link -/

/-- Characters that `urllib.parse.quote_plus` leaves as they are. -/
def isSafe (b : Fin 256) : Bool :=
  (48 ≤ b.val && b.val ≤ 57) || (65 ≤ b.val && b.val ≤ 90) || (97 ≤ b.val && b.val ≤ 122) ||
    b.val = 95 || b.val = 46 || b.val = 45 || b.val = 126

/-- A hexadecimal digit, in capitals. -/
def hexDigit (n : ℕ) : Char := if n < 10 then Char.ofNat (48 + n) else Char.ofNat (55 + n)

/-- `urllib.parse.quote_plus` of one byte. -/
def quoteByte (b : Fin 256) : List Char :=
  if isSafe b then [Char.ofNat b.val]
  else if b.val = 32 then ['+']
  else ['%', hexDigit (b.val / 16), hexDigit (b.val % 16)]

/-- `urllib.parse.quote_plus`, `scenarioplanner/linkingapi/url_generator.py:61`. -/
def quotePlus (u : List (Fin 256)) : List Char := u.flatMap quoteByte

/-- `str` of an identifier of a sheet. -/
def number (n : ℕ) : List Char := Nat.toDigits 10 n

/-- The tabs that sources of the report show, with the names of the sources,
`scenarioplanner/linkingapi/url_generator.py:81-124` and `scenarioplanner/converters/dataframe/constants.py:23-64`. -/
def sources : List (String × String) :=
  [("ModelFit", "ds_model_fit"), ("ModelDiagnostics", "ds_model_diag"), ("MediaOutcome", "ds_outcome"),
   ("MediaSpend", "ds_spend"), ("MediaROI", "ds_roi")]

/-- The part of the link for one source, and whether there is a warning. -/
def sourceParam (tabs : List (String × ℕ)) (s : String × String) : List (List Char × List Char) :=
  match tabs.lookup s.1 with
  | some i => [(("ds." ++ s.2 ++ ".worksheetId").toList, number i)]
  | none => []

/-- The parameters of the link, `scenarioplanner/linkingapi/url_generator.py:59-124` with the constants of
`scenarioplanner/linkingapi/constants.py`. -/
def linkParams (ss : Spreadsheet) : List (List Char × List Char) :=
  [("c.reportId".toList, "fbd3aeff-fc00-45fd-83f7-1ec5f21c9f56".toList),
   ("r.measurementId".toList, "G-R6C81BNHJ4".toList)] ++
  (if (ss.tabs.lookup "budget_opt_specs").isSome then
    [("ds.dscc.connector".toList, "community".toList),
     ("ds.dscc.connectorId".toList,
       "AKfycbx-HSSApXV7VTvYCgzvifyQ-bRlB3Oo_uAAvRKBkwUG1nOVIO_dTlpTmVASYM7oeN0D".toList),
     ("ds.dscc.spreadsheetUrl".toList, quotePlus ss.url)]
   else []) ++
  [("ds.*.refreshFields".toList, "false".toList), ("ds.*.keepDatasourceName".toList, "true".toList),
   ("ds.*.connector".toList, "googleSheets".toList), ("ds.*.spreadsheetId".toList, ss.id)] ++
  sources.flatMap (sourceParam ss.tabs)

/-- One parameter, written. -/
def written (p : List Char × List Char) : List Char := p.1 ++ '=' :: p.2

/-- `create_report_url`, `scenarioplanner/linkingapi/url_generator.py:126-131`. -/
def reportUrl (ss : Spreadsheet) : List Char :=
  "https://lookerstudio.google.com/reporting/create?".toList ++ ['&'].intercalate ((linkParams ss).map written)

/-- The number of warnings of `create_report_url`. -/
def warningCount (ss : Spreadsheet) : ℕ :=
  (("budget_opt_specs" :: sources.map Prod.fst).filter fun t => (ss.tabs.lookup t).isNone).length

end Verif.Publish
