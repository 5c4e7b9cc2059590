import Verif.Model.Utf8
/-!
Model of `src/source/comment.rs`, `src/error/level.rs` and `src/error/diagnostic.rs`.
-/
namespace Verif

/-- src/source/comment.rs:8-28 `CommentType`. -/
inductive CommentType where
  | inline
  | document
  | unknown
deriving DecidableEq, Repr

/-- src/source/comment.rs:33-39 `Comment`. -/
structure Comment where
  location : Loc
  kind : CommentType
deriving DecidableEq, Repr

/-- `str::starts_with` on texts. -/
def textStartsWith (t : List Nat) (p : String) : Bool := (p.toList.map Char.toNat).isPrefixOf t

/-- src/source/comment.rs:43-57 `Comment::new`. -/
def Comment.new (location : Loc) (input : DecodedInput) : Res Comment := do
  let kind := match ← location.source input with
    | some source =>
      if textStartsWith source "#" then .inline
      else if textStartsWith source "=begin" then .document
      else .unknown
    | none => CommentType.unknown
  return ⟨location, kind⟩

/-- src/error/level.rs:4-9 `ErrorLevel`. -/
inductive ErrorLevel where
  | warning
  | error
deriving DecidableEq, Repr

/-- src/error/level.rs:11-19 `to_string`. -/
def ErrorLevel.text : ErrorLevel → List Nat
  | .warning => "warning".toList.map Char.toNat
  | .error => "error".toList.map Char.toNat

/-- `format!("{}", n)` for `usize`. -/
def natText (n : Nat) : List Nat := lit (toString n)

/-- Unicode `White_Space` (what `str::trim` removes). -/
def isWhite (n : Nat) : Bool :=
  (9 ≤ n && n ≤ 13) || n = 32 || n = 0x85 || n = 0xA0 || n = 0x1680 || (0x2000 ≤ n && n ≤ 0x200A) ||
    n = 0x2028 || n = 0x2029 || n = 0x202F || n = 0x205F || n = 0x3000

/-- `str::trim`. -/
def trim (t : List Nat) : List Nat := ((t.dropWhile isWhite).reverse.dropWhile isWhite).reverse

/-- src/error/diagnostic.rs:11-20 `Diagnostic`; the message is kept as its rendered text
(`DiagnosticMessage::render` belongs to the external crate). -/
structure Diagnostic where
  level : ErrorLevel
  message : List Nat
  loc : Loc
deriving DecidableEq, Repr

/-- src/error/diagnostic.rs:43-51: the highlight line. -/
def Diagnostic.highlight (startCol : Nat) (size : Nat) : List Nat :=
  List.replicate startCol 32 ++ [94] ++ (if size > 0 then List.replicate (size - 1) 126 else [])

/-- src/error/diagnostic.rs:35-66 `render`; `input.name` is a text.  The evaluation order of the Rust code
is kept: both `?` on locations come before `Loc::size`. -/
def Diagnostic.render (d : Diagnostic) (input : DecodedInput) : Res (Option (List Nat)) := do
  match ← d.loc.expandToLine input with
  | none => return none
  | some (lineNo, lineLoc) =>
    match ← lineLoc.source input with
    | none => return none
    | some line =>
      match ← d.loc.beginLineCol input with
      | none => return none
      | some (_, startCol) =>
        let pre := lit input.name ++ lit ":" ++ natText (lineNo + 1)
        let hl := highlight startCol (← d.loc.size)
        return some (trim (pre ++ lit ":" ++ natText startCol ++ lit ": " ++ d.level.text ++ lit ": " ++
          d.message ++ lit "\n" ++ pre ++ lit ": " ++ line ++ lit "\n" ++ pre ++ lit ": " ++ hl))

/-- src/error/diagnostic.rs:69-71 `is_warning`. -/
def Diagnostic.isWarning (d : Diagnostic) : Bool := match d.level with | .warning => true | _ => false

/-- src/error/diagnostic.rs:74-76 `is_error`. -/
def Diagnostic.isError (d : Diagnostic) : Bool := match d.level with | .error => true | _ => false

end Verif
