import Verif.Prim
import Verif.Spec.Apart
import Verif.Spec.Apply
import Verif.Spec.Ask
import Verif.Spec.Assemble
import Verif.Spec.Attach
import Verif.Spec.Basic
import Verif.Spec.Bounds
import Verif.Spec.Buffer
import Verif.Spec.Changing
import Verif.Spec.Classify
import Verif.Spec.Client
import Verif.Spec.Closed
import Verif.Spec.Collection
import Verif.Spec.Compile
import Verif.Spec.Contextual
import Verif.Spec.Correct
import Verif.Spec.Counts
import Verif.Spec.Cpal
import Verif.Spec.Delivery
import Verif.Spec.Device
import Verif.Spec.Distance
import Verif.Spec.Edited
import Verif.Spec.Encode
import Verif.Spec.EncodeTaken
import Verif.Spec.Engage
import Verif.Spec.Follow
import Verif.Spec.Font
import Verif.Spec.FontFile
import Verif.Spec.Fvar
import Verif.Spec.Gdef
import Verif.Spec.Gpos
import Verif.Spec.Growth
import Verif.Spec.Gsub
import Verif.Spec.Ignore
import Verif.Spec.Item
import Verif.Spec.Kern
import Verif.Spec.Lacking
import Verif.Spec.Layout
import Verif.Spec.Lenient
import Verif.Spec.Lists
import Verif.Spec.Longer
import Verif.Spec.Make
import Verif.Spec.Match
import Verif.Spec.Nested
import Verif.Spec.Partly
import Verif.Spec.Parts
import Verif.Spec.Perform
import Verif.Spec.Placing
import Verif.Spec.Position
import Verif.Spec.Problem
import Verif.Spec.Rearranged
import Verif.Spec.Renumber
import Verif.Spec.Resolve
import Verif.Spec.Roomy
import Verif.Spec.Rules
import Verif.Spec.Separate
import Verif.Spec.Settle
import Verif.Spec.Shape
import Verif.Spec.Shared
import Verif.Spec.Sharing
import Verif.Spec.Subset
import Verif.Spec.Threads
import Verif.Spec.Typeset
import Verif.Spec.Values
import Verif.Spec.Walk
import Verif.Spec.Wanted
import Verif.Spec.Work
import Verif.Model.Cpal
import Verif.Model.Defaults
import Verif.Model.Font
import Verif.Model.Fvar
import Verif.Model.Gdef
import Verif.Model.Gpos
import Verif.Model.Gsub
import Verif.Model.Item
import Verif.Model.Layout
import Verif.Model.Lists
import Verif.Model.TagData
import Verif.Model.Tags
import Verif.Proof.Amplify
import Verif.Proof.Asked
import Verif.Proof.AskedMore
import Verif.Proof.AskedTables
import Verif.Proof.Basic
import Verif.Proof.Blame
import Verif.Proof.BlameIgnoring
import Verif.Proof.BlameTables
import Verif.Proof.Bounds
import Verif.Proof.Calm
import Verif.Proof.CalmTables
import Verif.Proof.Checksum
import Verif.Proof.Content
import Verif.Proof.Counts
import Verif.Proof.Cpal
import Verif.Proof.Device
import Verif.Proof.DeviceTables
import Verif.Proof.Edited
import Verif.Proof.Effort
import Verif.Proof.EffortFont
import Verif.Proof.EffortTables
import Verif.Proof.Encode
import Verif.Proof.EncodeLayout
import Verif.Proof.EncodeLists
import Verif.Proof.EncodeTables
import Verif.Proof.EncodeTaken
import Verif.Proof.Font
import Verif.Proof.FontFile
import Verif.Proof.Forward
import Verif.Proof.ForwardTables
import Verif.Proof.Fvar
import Verif.Proof.Gdef
import Verif.Proof.Generic
import Verif.Proof.Gpos
import Verif.Proof.Growth
import Verif.Proof.Gsub
import Verif.Proof.Item
import Verif.Proof.Layout
import Verif.Proof.Level
import Verif.Proof.Lists
import Verif.Proof.Methods
import Verif.Proof.Mono
import Verif.Proof.Partly
import Verif.Proof.Parts
import Verif.Proof.Reach
import Verif.Proof.ReachTables
import Verif.Proof.Rearranged
import Verif.Proof.Reloc
import Verif.Proof.RelocLayout
import Verif.Proof.RelocTables
import Verif.Proof.Run
import Verif.Proof.Safety
import Verif.Proof.Sharing
import Verif.Proof.Size
import Verif.Proof.SizeGpos
import Verif.Proof.SizeTables
import Verif.Proof.Tactic
import Verif.Proof.Translation
import Verif.Proof.Variants
import Verif.Proof.Work
import Verif.Proof.WorkTables
import Verif.Generated.Cpal
import Verif.Generated.Font
import Verif.Generated.Fvar
import Verif.Generated.Gdef
import Verif.Generated.Gpos
import Verif.Generated.Gsub
import Verif.Generated.Item
import Verif.Generated.Layout
import Verif.Generated.Lists
import Verif.Generated.Methods
import Verif.Generated.Tags
import Verif.Props.Adjust
import Verif.Props.Anytape
import Verif.Props.Apart
import Verif.Props.Apply
import Verif.Props.Ask
import Verif.Props.Asked
import Verif.Props.AskedFont
import Verif.Props.Assemble
import Verif.Props.Attach
import Verif.Props.Behind
import Verif.Props.Blame
import Verif.Props.Bounds
import Verif.Props.Buffer
import Verif.Props.Built
import Verif.Props.ByHand
import Verif.Props.Changing
import Verif.Props.Classify
import Verif.Props.Client
import Verif.Props.Closed
import Verif.Props.Collection
import Verif.Props.Compile
import Verif.Props.Complete
import Verif.Props.Confined
import Verif.Props.Contextual
import Verif.Props.Correct
import Verif.Props.Counts
import Verif.Props.Cpal
import Verif.Props.Damage
import Verif.Props.Defaults
import Verif.Props.Delivery
import Verif.Props.Device
import Verif.Props.Directory
import Verif.Props.Distance
import Verif.Props.Edited
import Verif.Props.EditedFont
import Verif.Props.Effort
import Verif.Props.Encode
import Verif.Props.Ending
import Verif.Props.Engage
import Verif.Props.Faithful
import Verif.Props.Flags
import Verif.Props.Follow
import Verif.Props.Font
import Verif.Props.FontFile
import Verif.Props.Footprint
import Verif.Props.Forward
import Verif.Props.Fvar
import Verif.Props.Gdef
import Verif.Props.Generic
import Verif.Props.Gpos
import Verif.Props.Growth
import Verif.Props.Gsub
import Verif.Props.Ignore
import Verif.Props.Isolation
import Verif.Props.Kern
import Verif.Props.Keys
import Verif.Props.Lacking
import Verif.Props.Layout
import Verif.Props.Lenient
import Verif.Props.Lists
import Verif.Props.Local
import Verif.Props.Longer
import Verif.Props.Make
import Verif.Props.Match
import Verif.Props.Nested
import Verif.Props.Options
import Verif.Props.Panics
import Verif.Props.Partly
import Verif.Props.Parts
import Verif.Props.Perform
import Verif.Props.Placing
import Verif.Props.Position
import Verif.Props.Quiet
import Verif.Props.Reach
import Verif.Props.ReachFont
import Verif.Props.Rearranged
import Verif.Props.Renumber
import Verif.Props.Resolve
import Verif.Props.Retry
import Verif.Props.Rules
import Verif.Props.Safety
import Verif.Props.Sample
import Verif.Props.Separate
import Verif.Props.Session
import Verif.Props.Settle
import Verif.Props.Shape
import Verif.Props.Shared
import Verif.Props.Sharing
import Verif.Props.Size
import Verif.Props.Subset
import Verif.Props.SubsetTables
import Verif.Props.Tags
import Verif.Props.Threads
import Verif.Props.Truncation
import Verif.Props.Typeset
import Verif.Props.Values
import Verif.Props.Walk
import Verif.Props.Wanted
import Verif.Props.Work
