import Verif.Model.Cpal
import Verif.Model.Lists
import Verif.Proof.Methods
/-!
# Generated by `tools/translate.py` from the source: do not edit

Each definition is the translation of the code at the lines given, and each theorem says that the definition
of the model written by hand is the same.
-/

set_option linter.unusedVariables false

namespace OpenType.Generated

namespace script
/-- `src/layout/script.rs:55-62`. -/
def Scripts.get (self : script.Scripts) (tag : Tag) : Except Err (Option script.Record) := do
  let tag := tag
  mapOption (fun (i, _) => do
        indexed self.records i) ((enumerate self.headers).find? (fun (_, header) => (header.tag = tag)))

/-- The model of `src/layout/script.rs:55-62` is its translation. -/
theorem Scripts.get_eq : @Scripts.get = @OpenType.script.Scripts.get := by
  funext self tag
  exact found_eq _ _ _ _
end script

namespace script
/-- `src/layout/script.rs:67-74`. -/
def Record.get (self : script.Record) (tag : Tag) : Except Err (Option language.Record) := do
  let tag := tag
  mapOption (fun (i, _) => do
        indexed self.language_records i) ((enumerate self.language_headers).find? (fun (_, header) => (header.tag = tag)))

/-- The model of `src/layout/script.rs:67-74` is its translation. -/
theorem Record.get_eq : @Record.get = @OpenType.script.Record.get := by
  funext self tag
  exact found_eq _ _ _ _
end script

namespace feature
/-- `src/layout/feature.rs:64-71`. -/
def Features.get (self : feature.Features) (tag : Tag) : Except Err (Option feature.Record) := do
  let tag := tag
  mapOption (fun (i, _) => do
        indexed self.records i) ((enumerate self.headers).find? (fun (_, header) => (header.tag = tag)))

/-- The model of `src/layout/feature.rs:64-71` is its translation. -/
theorem Features.get_eq : @Features.get = @OpenType.feature.Features.get := by
  funext self tag
  exact found_eq _ _ _ _
end feature

namespace cpal
/-- `src/tables/color_palettes.rs:67-87`. -/
def ColorPalettes.iter (cfg : Cfg) (self : cpal.ColorPalettes) : List (List (Except Err cpal.Color)) :=
  let (entry_count, color_count, color_indices) :=
      match self.header with
      | .version0 header => (header.entry_count, header.color_count, header.color_indices)
      | .version1 header => (header.entry_count, header.color_count, header.color_indices)
  (color_indices.map (fun palette_index => ((List.range entry_count).map (fun entry_index => do
        let color_index ← addIndex palette_index entry_index
        debugAssert cfg (color_index < color_count) "assertion failed: color_index < color_count as usize"
        indexed self.colors color_index))))

/-- The model of `src/tables/color_palettes.rs:67-87` is its translation. -/
theorem ColorPalettes.iter_eq : @ColorPalettes.iter = @OpenType.cpal.ColorPalettes.iter := by
  funext cfg self
  unfold ColorPalettes.iter OpenType.cpal.ColorPalettes.iter
  cases self.header <;> simp only [entry_eq]
end cpal

end OpenType.Generated
