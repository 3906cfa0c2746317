import Verif.Model.Font
import Verif.Proof.Methods
/-!
# Generated by `tools/translate.py` from the source: do not edit

Each definition is the translation of the code at the lines given, and each theorem says that the definition
of the model written by hand is the same.
-/

set_option linter.unusedVariables false

namespace OpenType.Generated

open offsets

/-- `src/table.rs:29-46`. -/
def TableType.tag : TableType → Tag
  | .fontSet => tag4 'C' 'F' 'F' ' '
  | .colorPalettes => tag4 'C' 'P' 'A' 'L'
  | .glyphDefinition => tag4 'G' 'D' 'E' 'F'
  | .glyphPositioning => tag4 'G' 'P' 'O' 'S'
  | .glyphSubstitution => tag4 'G' 'S' 'U' 'B'
  | .windowsMetrics => tag4 'O' 'S' '/' '2'
  | .characterMapping => tag4 'c' 'm' 'a' 'p'
  | .fontVariations => tag4 'f' 'v' 'a' 'r'
  | .glyphData => tag4 'g' 'l' 'y' 'f'
  | .fontHeader => tag4 'h' 'e' 'a' 'd'
  | .horizontalHeader => tag4 'h' 'h' 'e' 'a'
  | .horizontalMetrics => tag4 'h' 'm' 't' 'x'
  | .glyphMapping => tag4 'l' 'o' 'c' 'a'
  | .maximumProfile => tag4 'm' 'a' 'x' 'p'
  | .names => tag4 'n' 'a' 'm' 'e'
  | .postScript => tag4 'p' 'o' 's' 't'
  | .custom a b c d => a.toNat * 16777216 + b.toNat * 65536 + c.toNat * 256 + d.toNat

/-- The model of `src/table.rs:29-46` is its translation. -/
theorem TableType.tag_eq : @TableType.tag = @OpenType.TableType.tag := rfl

/-- `src/lib.rs:61-64`. -/
def accept (truetypeAccept : Tag → Bool) (tag : Tag) : Bool :=
  ((tag = (tag4 't' 't' 'c' 'f')) || (truetypeAccept tag))

/-- The model of `src/lib.rs:61-64` is its translation. -/
theorem accept_eq : @accept = @OpenType.accept := by
  funext f tag
  exact accepts_eq _ _ _

/-- `src/font.rs:74-79`. -/
def Font.value (accept : Tag → Bool) : Reader Font := do
  let t1 ← Offsets.read accept
  pure { offsets := t1 }

/-- The model of `src/font.rs:74-79` is its translation. -/
theorem Font.value_eq : @Font.value = @OpenType.Font.read := rfl

/-- `src/font.rs:14-20`. -/
def Font.read (accept : Tag → Bool) : Reader Font := do
  Font.value accept

/-- The model of `src/font.rs:14-20` is its translation. -/
theorem Font.read_eq : @Font.read = @OpenType.Font.read := rfl

/-- `src/font.rs:23-27`. -/
def Font.exists (self : Font) (table : TableType) : Bool :=
  let tag := table.tag
  (self.offsets.records.any (fun record => (record.tag = tag)))

/-- The model of `src/font.rs:23-27` is its translation. -/
theorem Font.exists_eq : @Font.exists = @OpenType.Font.exists := by
  funext self table
  exact any_eq _ _

/-- `src/font.rs:30-47`. -/
def Font.position (cfg : Cfg) (checksum : Record → Reader Nat) (self : Font) (table : TableType) : Reader (Option Unit) := do
  let tag := table.tag
  forReturn self.offsets.records
    (fun record => do
      if (record.tag = tag) then do
        (if cfg.ignoreInvalidChecksums = false then do
          let t1 ← checksum record
          raiseIf (record.checksum ≠ t1) ⟨"found a malformed font table with", [record.tag]⟩
        else pure ())
        jump record.offset
        returning (pure (some ()))
      else
        pure none)
    (do
      pure none)

/-- The model of `src/font.rs:30-47` is its translation. -/
theorem Font.position_eq : @Font.position = @OpenType.Font.position := by
  funext cfg checksum self table
  exact loop_eq _ _ _ _

/-- `src/font.rs:50-59`. -/
def Font.take {α : Type} (cfg : Cfg) (checksum : Record → Reader Nat) (self : Font) (table : TableType) (r : Reader α) :
    Reader (Option α) := do
  let t1 ← Font.position cfg checksum self table
  mapOption (fun _ => r) t1

/-- The model of `src/font.rs:50-59` is its translation. -/
theorem Font.take_eq : @Font.take = @OpenType.Font.take := by
  funext α cfg checksum self table r
  unfold Font.take OpenType.Font.take
  rw [Font.position_eq]
  congr 1
  funext x
  cases x <;> rfl

/-- `src/font.rs:62-70`. -/
def Font.take_given {α P : Type} (cfg : Cfg) (checksum : Record → Reader Nat) (self : Font) (table : TableType) (r : P → Reader α)
    (parameter : P) : Reader (Option α) := do
  let t1 ← Font.position cfg checksum self table
  mapOption (fun _ => r parameter) t1

/-- The model of `src/font.rs:62-70` is its translation. -/
theorem Font.take_given_eq : @Font.take_given = @OpenType.Font.take_given := by
  funext α P cfg checksum self table r parameter
  unfold Font.take_given OpenType.Font.take_given
  rw [Font.position_eq]
  congr 1
  funext x
  cases x <;> rfl

/-- `src/file.rs:14-21`. -/
def File.read (accept : Tag → Bool) : Reader File := do
  let t2 ← peek takeTag
  raiseIf (t2 = (tag4 't' 't' 'c' 'f')) "found a TrueType collection, which is not supported yet"
  let t1 ← Font.read accept
  pure { fonts := [t1] }

/-- The model of `src/file.rs:14-21` is its translation. -/
theorem File.read_eq : @File.read = @OpenType.File.read := rfl

end OpenType.Generated
