import Verif
open OpenType

def slice (f : String) (o n : Nat) : IO Data := do
  let b ← IO.FS.readBinFile (System.FilePath.mk "/repo/tests/fixtures" / f)
  return (b.extract o (o + n)).toList

def str (t : Nat) : String :=
  String.ofList [Char.ofNat (t / 16777216), Char.ofNat (t / 65536 % 256), Char.ofNat (t / 256 % 256), Char.ofNat (t % 256)]

def run {α} (r : Reader α) (d : Data) : Except Err α := (r d 0).map (·.1)
def lenient : Cfg := ⟨false, false, false, false, true, false⟩
def strict : Cfg := ⟨false, false, false, false, true, true⟩
def incomplete : Cfg := ⟨false, true, false, false, true, true⟩

def sh {α} : Except Err α → String
  | .ok _ => "ok" | .error .eof => "eof" | .error (.malformed m) => "malformed " ++ m
  | .error (.panic m) => "panic " ++ m

def fonts := ["AdobeVFPrototype.otf", "AdobeVFPrototype.ttf", "CrimsonText-Regular.ttf", "Gingham.ttf",
  "KalniaGlaze[wdth,wght].ttf", "KaushanScript-Regular.ttf", "LondrinaSolid-Regular.ttf", "OpenSans-Italic.ttf",
  "SourceSerifPro-Regular.otf"]

def main : IO Unit := do
  for f in fonts do
    IO.println s!"== {f}"
    let d ← slice f 0 4096
    match run (File.read (accept fun t => t == 0x00010000 || t == tag4 'O' 'T' 'T' 'O')) d with
    | .error e => IO.println (repr e)
    | .ok file =>
      for font in file.fonts do
        for r in font.offsets.records do
          let t ← slice f r.offset ((r.size + 3) / 4 * 4)
          let c := run (tableChecksum { r with offset := 0 }) t
          if c.toOption != some r.checksum then IO.println s!"checksum mismatch {str r.tag}"
          let d ← slice f r.offset r.size
          if str r.tag == "GSUB" then
            for c in [lenient, strict, incomplete] do
              match run (gsub.GlyphSubstitution.read c) d with
              | .error e => IO.println s!"GSUB {repr e}"
              | .ok t =>
                IO.println s!"GSUB ok {t.major_version} {t.minor_version} scripts {t.scripts.headers.map (str ·.tag)} {t.scripts.records.map (·.language_headers.map (str ·.tag))} {t.scripts.records.map (·.default_language.isSome)} features {t.features.headers.map (str ·.tag)} {t.features.records.map (·.lookup_index_count)} types {t.lookups.records.map (·.type_)} tables {t.lookups.records.map (·.tables.length)}"
                for l in t.lookups.records do
                  for u in l.tables do
                    match u with
                    | .singleSubstitution (.format2 u) => IO.print s!"S2:{u.glyph_count} "
                    | .ligatureSubstitution u => IO.print s!"L:{u.records.map fun x => x.records.map (·.glyph_count)} "
                    | _ => pure ()
                IO.println ""
          if str r.tag == "GPOS" then
            for c in [lenient, strict] do
              match run (gpos.GlyphPositioning.read c) d with
              | .error e => IO.println s!"GPOS {repr e}"
              | .ok t =>
                IO.println s!"GPOS ok {t.major_version} {t.minor_version} scripts {t.scripts.headers.map (str ·.tag)} {t.scripts.records.map (·.language_headers.map (str ·.tag))} features {t.features.headers.map (str ·.tag)} {t.features.records.map (·.lookup_index_count)} types {t.lookups.records.map (·.type_)} tables {t.lookups.records.map (·.tables.length)}"
                for l in t.lookups.records do
                  for u in l.tables do
                    match u with
                    | .pairAdjustment (.format1 u) => IO.print s!"P1:{u.record_count} "
                    | .pairAdjustment (.format2 u) => IO.print s!"P2:{u.class1_count}x{u.class2_count} "
                    | _ => pure ()
                IO.println ""
          if str r.tag == "GDEF" then
            match run (gdef.GlyphDefinition.read strict) d with
            | .error e => IO.println s!"GDEF {repr e}"
            | .ok t => IO.println s!"GDEF ok {repr t.header} {t.glyph_class.isSome} {t.attachments.isSome} {t.ligatures.map (·.count)} {t.mark_class.isSome} {t.marks.isSome} {t.variations.isSome}"
                       match t.glyph_class with
                       | some (.format2 u) => IO.println s!"class2 {u.record_count}: {repr (u.records.take 1)}"
                       | _ => pure ()
          if str r.tag == "CPAL" then
            match run cpal.ColorPalettes.read d with
            | .error e => IO.println s!"CPAL {repr e}"
            | .ok t => IO.println s!"CPAL ok {repr t.header} {t.colors.length} {(t.iter strict).map (·.map sh)}"
          if str r.tag == "fvar" then
            match run (fvar.FontVariations.read strict) d with
            | .error e => IO.println s!"fvar {repr e}"
            | .ok t => IO.println s!"fvar ok {repr t.header} {t.axis_records.map fun a => (str a.tag, a.min_value/65536, a.max_value/65536)}"
