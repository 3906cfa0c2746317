import Verif.Spec.Perform
import Verif.Spec.Match
import Verif.Spec.Attach
/-!
# Specification: what the other lookups do

What lookups with alternates, contexts and attachments do, in the terms of `Spec/Perform.lean`. Here a subtable does one kind of
thing or nothing.
-/

namespace OpenType.Spec
open OpenType lookup directory context

/-- Subtables of type `k` do this and have this missing, and others do nothing. -/
def only {T β : Type} (wellFormed : Nat → Data → Nat → T → Prop) (k : Nat) (does : Data → Nat → β → Prop)
    (missing : Data → Nat → Prop) : Effect T β where
  wellFormed := wellFormed
  does d type_ a y := type_ = k ∧ does d a y
  missing d type_ a := type_ = k ∧ missing d a

/-! ## In bytes -/

/-- The alternates of a glyph. -/
def alternateEffect (g : Nat) : Effect gsub.Type_ (List Nat) :=
  only gsub.IsTable 3 (fun d a glyphs => ∃ s, EntryAt d a g s ∧ GlyphsAt d s glyphs) fun d a => Missing d a g

/-- What is to be done to a glyph in a context, in GSUB. -/
def contextEffect (g : Nat) (after : List Nat) : Effect gsub.Type_ (Nat × List Action) :=
  only gsub.IsTable 5 (fun d a => MatchedBy d a g after) fun d a => MissingRules d a g

/-- What is to be done to a glyph in a chained context, in GSUB. -/
def chainEffect (before : List Nat) (g : Nat) (after : List Nat) : Effect gsub.Type_ (Nat × List Action) :=
  only gsub.IsTable 6 (fun d a => ChainMatchedBy d a before g after) fun d a => MissingChain d a g

/-- What replaces a glyph by a reverse chained substitution. -/
def reverseEffect (before : List Nat) (g : Nat) (after : List Nat) : Effect gsub.Type_ Nat :=
  only gsub.IsTable 8 (fun d a => ReversedBy d a before g after) fun d a => MissingSubstitute d a before g after

/-- Where the glyphs before and after a glyph are connected to it. -/
def cursiveEffect (cfg : Cfg) (g : Nat) : Effect gpos.Type_ (Option gpos.Anchor × Option gpos.Anchor) :=
  only (gpos.IsTable cfg) 3 (fun d a y => ConnectedBy d a g y.1 y.2) fun d a => Missing d a g

/-- Where a mark is attached to a base. -/
def baseEffect (cfg : Cfg) (m b : Nat) : Effect gpos.Type_ (gpos.Anchor × gpos.Anchor) :=
  only (gpos.IsTable cfg) 4 (fun d a y => AttachedBy cfg (AnchorIn d) d a m b y.1 y.2) fun d a =>
    MissingAnchor cfg (NoAnchorIn d) d a m b

/-- Where a mark is attached to component `c` of a ligature. -/
def ligatureEffect (cfg : Cfg) (c m l : Nat) : Effect gpos.Type_ (gpos.Anchor × gpos.Anchor) :=
  only (gpos.IsTable cfg) 5 (fun d a y => AttachedBy cfg (ComponentIn d c) d a m l y.1 y.2) fun d a =>
    MissingAnchor cfg (NoComponentIn d c) d a m l

/-- Where a mark is attached to another mark. -/
def markEffect (cfg : Cfg) (m b : Nat) : Effect gpos.Type_ (gpos.Anchor × gpos.Anchor) :=
  only (gpos.IsTable cfg) 6 (fun d a y => AttachedBy cfg (AnchorIn d) d a m b y.1 y.2) fun d a =>
    MissingAnchor cfg (NoAnchorIn d) d a m b

/-- What is to be done to a glyph in a context, in GPOS. -/
def positionEffect (cfg : Cfg) (g : Nat) (after : List Nat) : Effect gpos.Type_ (Nat × List Action) :=
  only (gpos.IsTable cfg) 7 (fun d a => MatchedBy d a g after) fun d a => MissingRules d a g

/-- What is to be done to a glyph in a chained context, in GPOS. -/
def positionChainEffect (cfg : Cfg) (before : List Nat) (g : Nat) (after : List Nat) : Effect gpos.Type_ (Nat × List Action) :=
  only (gpos.IsTable cfg) 8 (fun d a => ChainMatchedBy d a before g after) fun d a => MissingChain d a g

/-! ## Programs -/

def alternateAct (g : Nat) : gsub.Type_ → Except Err (Option (List Nat))
  | .alternateSubstitution t => alternatives t g
  | _ => .ok none

def contextAct (g : Nat) (after : List Nat) : gsub.Type_ → Except Err (Option (Nat × List Action))
  | .contextualSubstitution t => matchContext t g after
  | _ => .ok none

def chainAct (before : List Nat) (g : Nat) (after : List Nat) : gsub.Type_ → Except Err (Option (Nat × List Action))
  | .chainedContextualSubstitution t => matchChain t before g after
  | _ => .ok none

def reverseAct (before : List Nat) (g : Nat) (after : List Nat) : gsub.Type_ → Except Err (Option Nat)
  | .reverseChainedContextualSubstibution t => matchReverse t before g after
  | _ => .ok none

def cursiveAct (g : Nat) : gpos.Type_ → Except Err (Option (Option gpos.Anchor × Option gpos.Anchor))
  | .cursiveAttachment t => connect t g
  | _ => .ok none

def baseAct (m b : Nat) : gpos.Type_ → Except Err (Option (gpos.Anchor × gpos.Anchor))
  | .markToBaseAttachment t => attachToBase t m b
  | _ => .ok none

def ligatureAct (c m l : Nat) : gpos.Type_ → Except Err (Option (gpos.Anchor × gpos.Anchor))
  | .markToLigatureAttachment t => attachToLigature t c m l
  | _ => .ok none

def markAct (m b : Nat) : gpos.Type_ → Except Err (Option (gpos.Anchor × gpos.Anchor))
  | .markToMarkAttachment t => attachToMark t m b
  | _ => .ok none

def positionAct (g : Nat) (after : List Nat) : gpos.Type_ → Except Err (Option (Nat × List Action))
  | .contextualPositioning t => matchContext t g after
  | _ => .ok none

def positionChainAct (before : List Nat) (g : Nat) (after : List Nat) : gpos.Type_ → Except Err (Option (Nat × List Action))
  | .chainedContextualPositioning t => matchChain t before g after
  | _ => .ok none

end OpenType.Spec
