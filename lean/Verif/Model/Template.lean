import Verif.Model.Meta
import Verif.Model.Plot

/-!
# glmtools/io/imagery.py: templates of paths

`outpath.format(start_time=start, end_time=end, dataset_name=...)`, imagery.py:522-523, with what it needs of `str.format`
and `datetime.strftime` of the Python library.
-/

namespace Verif.Model

open Verif.Py

/-- What is not modelled of the Python library: fields with a conversion, an attribute, an index or a field within the field,
widths of texts, and the directives of `strftime` that are not listed in `strftimeDirective`. -/
structure FormatOthers where
  field : Text → Except Err Text
  directive : Char → DateTime → Text

/-- A directive of `strftime`, in the C locale. -/
def strftimeDirective (o : FormatOthers) (c : Char) (t : DateTime) : Text :=
  if c = 'Y' then strftimeYear t.year
  else if c = 'y' then two t.year
  else if c = 'm' then two t.month
  else if c = 'b' then monthName t.month
  else if c = 'd' then two t.day
  else if c = 'H' then two t.hour
  else if c = 'M' then two t.minute
  else if c = 'S' then two t.second
  else if c = 'j' then three (dayOfYear t.year t.month t.day)
  else if c = 'f' then six t.microsecond
  else if c = '%' then ['%']
  else o.directive c t

/-- `t.strftime(spec)`. -/
def strftime (o : FormatOthers) (t : DateTime) : Text → Text
  | [] => []
  | '%' :: c :: rest => strftimeDirective o c t ++ strftime o t rest
  | c :: rest => c :: strftime o t rest

/-- `format(t, spec)` of a `datetime`: `str(t)` if the specification is empty. -/
def formatDateTime (o : FormatOthers) (t : DateTime) (spec : Text) : Text :=
  if spec = [] then strTime t else strftime o t spec

/-- The name and the specification of a field: before and after its first colon. -/
def fieldParts : Text → Text × Text
  | [] => ([], [])
  | c :: rest => if c = ':' then ([], rest) else (c :: (fieldParts rest).1, (fieldParts rest).2)

/-- The value of a field of the template.  A name that is not among the arguments is a KeyError; an empty name or a number
asks for an argument by its position, and there is none: IndexError. -/
def formatField (o : FormatOthers) (start stop : DateTime) (name field : Text) : Except Err Text :=
  let (key, spec) := fieldParts field
  if key.any fun c => c = '.' ∨ c = '[' ∨ c = '!' then o.field field
  else if field.any fun c => c = '{' then o.field field
  else if key = "start_time".toList then .ok (formatDateTime o start spec)
  else if key = "end_time".toList then .ok (formatDateTime o stop spec)
  else if key = "dataset_name".toList then if spec = [] then .ok name else o.field field
  else if key.all Char.isDigit then .error .indexError
  else .error .keyError

/-- `outpath.format(...)`, imagery.py:522-523.  `field` are the characters of the field that is being read, in reverse, or
`none` outside of fields.  Simplification: a field ends with the first closing brace. -/
def formatGo (o : FormatOthers) (start stop : DateTime) (name : Text) : Option Text → Text → Except Err Text
  | none, [] => .ok []
  | some _, [] => .error .valueError
  | some field, c :: rest =>
    if c = '}' then do
      let value ← formatField o start stop name field.reverse
      let after ← formatGo o start stop name none rest
      pure (value ++ after)
    else formatGo o start stop name (some (c :: field)) rest
  | none, '{' :: '{' :: rest => do pure ('{' :: (← formatGo o start stop name none rest))
  | none, '}' :: '}' :: rest => do pure ('}' :: (← formatGo o start stop name none rest))
  | none, c :: rest =>
    if c = '{' then formatGo o start stop name (some []) rest
    else if c = '}' then .error .valueError
    else do pure (c :: (← formatGo o start stop name none rest))

/-- `outpath.format(...)`, imagery.py:522-523. -/
def formatTemplate (o : FormatOthers) (template : Text) (start stop : DateTime) (name : Text) : Except Err Text :=
  formatGo o start stop name none template

end Verif.Model
