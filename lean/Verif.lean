import Verif.Base
import Verif.Ieee
import Verif.Model.Buf
import Verif.Model.Chunk
import Verif.Model.Cmap
import Verif.Model.Color
import Verif.Model.Constructors
import Verif.Model.Content
import Verif.Model.ContentStack
import Verif.Model.Counts
import Verif.Model.F32
import Verif.Model.Function
import Verif.Model.History
import Verif.Model.Object
import Verif.Model.Pdf
import Verif.Model.PostScript
import Verif.Model.Prim
import Verif.Model.Renumber
import Verif.Model.Roles
import Verif.Model.Stack
import Verif.Model.Typed.Actions
import Verif.Model.Typed.Annotations
import Verif.Model.Typed.Attributes
import Verif.Model.Typed.Base
import Verif.Model.Typed.Destination
import Verif.Model.Typed.Enums
import Verif.Model.Typed.Files
import Verif.Model.Typed.Fonts
import Verif.Model.Typed.Forms
import Verif.Model.Typed.Functions
import Verif.Model.Typed.Object
import Verif.Model.Typed.Pattern
import Verif.Model.Typed.Renditions
import Verif.Model.Typed.Resources
import Verif.Model.Typed.Structure
import Verif.Model.Typed.Transitions
import Verif.Model.Typed.XObject
import Verif.Proof.Annots
import Verif.Proof.Ascii
import Verif.Proof.Associated
import Verif.Proof.Attach
import Verif.Proof.Borders
import Verif.Proof.CharMaps
import Verif.Proof.Cmap
import Verif.Proof.Coding
import Verif.Proof.Color
import Verif.Proof.Colors
import Verif.Proof.Constructors
import Verif.Proof.Content
import Verif.Proof.Details
import Verif.Proof.Display
import Verif.Proof.DisplayMarks
import Verif.Proof.Document
import Verif.Proof.Embedded
import Verif.Proof.EmbeddedDisplay
import Verif.Proof.EmbeddedImages
import Verif.Proof.Enc
import Verif.Proof.Events
import Verif.Proof.Extract
import Verif.Proof.Fast
import Verif.Proof.Fields
import Verif.Proof.FileEnd
import Verif.Proof.Float
import Verif.Proof.Fonts
import Verif.Proof.Geometry
import Verif.Proof.Glyphs
import Verif.Proof.History
import Verif.Proof.Images
import Verif.Proof.Interpret
import Verif.Proof.ItemOk
import Verif.Proof.Labels
import Verif.Proof.Layout
import Verif.Proof.Limits
import Verif.Proof.Merge
import Verif.Proof.Metrics
import Verif.Proof.Minimal
import Verif.Proof.Named
import Verif.Proof.Namespaces
import Verif.Proof.Navigate
import Verif.Proof.Num
import Verif.Proof.Patch
import Verif.Proof.PostScript
import Verif.Proof.Pretty
import Verif.Proof.Properties
import Verif.Proof.Read
import Verif.Proof.Recover
import Verif.Proof.Resources
import Verif.Proof.Roles
import Verif.Proof.Scan
import Verif.Proof.Seek
import Verif.Proof.Semantics
import Verif.Proof.Spelling
import Verif.Proof.Stack
import Verif.Proof.States
import Verif.Proof.Str
import Verif.Proof.Survey
import Verif.Proof.Tagged
import Verif.Proof.Text
import Verif.Proof.Tree
import Verif.Proof.Typed.Actions
import Verif.Proof.Typed.Annotations
import Verif.Proof.Typed.Attributes
import Verif.Proof.Typed.Base
import Verif.Proof.Typed.Destination
import Verif.Proof.Typed.Enums
import Verif.Proof.Typed.Files
import Verif.Proof.Typed.Fonts
import Verif.Proof.Typed.Forms
import Verif.Proof.Typed.Functions
import Verif.Proof.Typed.Maps
import Verif.Proof.Typed.Object
import Verif.Proof.Typed.Pattern
import Verif.Proof.Typed.Renditions
import Verif.Proof.Typed.Resources
import Verif.Proof.Typed.Sample
import Verif.Proof.Typed.Structure
import Verif.Proof.Typed.Tactic
import Verif.Proof.Typed.Transitions
import Verif.Proof.Typed.XObject
import Verif.Proof.Unwind
import Verif.Proof.Viewing
import Verif.Proof.Visible
import Verif.Proof.XObjects
import Verif.Proof.XRef
import Verif.Props.Annots
import Verif.Props.Ascii
import Verif.Props.Associated
import Verif.Props.Attach
import Verif.Props.Borders
import Verif.Props.CharMaps
import Verif.Props.Checked
import Verif.Props.Chunks
import Verif.Props.Cmap
import Verif.Props.Coding
import Verif.Props.Color
import Verif.Props.Colors
import Verif.Props.Constructors
import Verif.Props.Content
import Verif.Props.ContentStack
import Verif.Props.Counts
import Verif.Props.Details
import Verif.Props.Display
import Verif.Props.DisplayMarks
import Verif.Props.Document
import Verif.Props.Embedded
import Verif.Props.EmbeddedDisplay
import Verif.Props.EmbeddedImages
import Verif.Props.Events
import Verif.Props.Extract
import Verif.Props.Fields
import Verif.Props.Files
import Verif.Props.Fonts
import Verif.Props.Geometry
import Verif.Props.Glyphs
import Verif.Props.Images
import Verif.Props.Interpret
import Verif.Props.Labels
import Verif.Props.Limits
import Verif.Props.Merge
import Verif.Props.Metrics
import Verif.Props.Named
import Verif.Props.Namespaces
import Verif.Props.Navigate
import Verif.Props.Objects
import Verif.Props.Order
import Verif.Props.PostScript
import Verif.Props.Primitives
import Verif.Props.Properties
import Verif.Props.Recover
import Verif.Props.Renumber
import Verif.Props.Resources
import Verif.Props.Roles
import Verif.Props.Seek
import Verif.Props.Semantics
import Verif.Props.Spacing
import Verif.Props.Spelling
import Verif.Props.States
import Verif.Props.Survey
import Verif.Props.Tagged
import Verif.Props.Tree
import Verif.Props.Typed.Actions
import Verif.Props.Typed.Annotations
import Verif.Props.Typed.Attributes
import Verif.Props.Typed.Defects
import Verif.Props.Typed.Destination
import Verif.Props.Typed.Files
import Verif.Props.Typed.Fonts
import Verif.Props.Typed.Forms
import Verif.Props.Typed.Functions
import Verif.Props.Typed.Maps
import Verif.Props.Typed.Object
import Verif.Props.Typed.Panics
import Verif.Props.Typed.Pattern
import Verif.Props.Typed.Renditions
import Verif.Props.Typed.Resources
import Verif.Props.Typed.Structure
import Verif.Props.Typed.Transitions
import Verif.Props.Typed.XObject
import Verif.Props.Unwind
import Verif.Props.Viewing
import Verif.Props.XObjects
import Verif.Spec.Annots
import Verif.Spec.Ascii
import Verif.Spec.Associated
import Verif.Spec.Attach
import Verif.Spec.Borders
import Verif.Spec.Calls
import Verif.Spec.CharMaps
import Verif.Spec.Cmap
import Verif.Spec.Coding
import Verif.Spec.Color
import Verif.Spec.Colors
import Verif.Spec.Constructors
import Verif.Spec.Content
import Verif.Spec.ContentStack
import Verif.Spec.Counts
import Verif.Spec.Denotes
import Verif.Spec.Details
import Verif.Spec.Display
import Verif.Spec.DisplayMarks
import Verif.Spec.Document
import Verif.Spec.Embedded
import Verif.Spec.EmbeddedDisplay
import Verif.Spec.EmbeddedImages
import Verif.Spec.Events
import Verif.Spec.Extract
import Verif.Spec.Fields
import Verif.Spec.File
import Verif.Spec.Finish
import Verif.Spec.Float
import Verif.Spec.Fonts
import Verif.Spec.Geometry
import Verif.Spec.Glyphs
import Verif.Spec.History
import Verif.Spec.Images
import Verif.Spec.Interpret
import Verif.Spec.Labels
import Verif.Spec.Lex
import Verif.Spec.Limits
import Verif.Spec.Merge
import Verif.Spec.Metrics
import Verif.Spec.Minimal
import Verif.Spec.Named
import Verif.Spec.Namespaces
import Verif.Spec.Navigate
import Verif.Spec.PostScript
import Verif.Spec.Pretty
import Verif.Spec.Properties
import Verif.Spec.Reader
import Verif.Spec.Recover
import Verif.Spec.Renumber
import Verif.Spec.Resources
import Verif.Spec.Roles
import Verif.Spec.Seek
import Verif.Spec.Semantics
import Verif.Spec.Spelling
import Verif.Spec.States
import Verif.Spec.Survey
import Verif.Spec.Tagged
import Verif.Spec.Text
import Verif.Spec.Tree
import Verif.Spec.Typed.Actions
import Verif.Spec.Typed.Annotations
import Verif.Spec.Typed.Attributes
import Verif.Spec.Typed.Base
import Verif.Spec.Typed.Destination
import Verif.Spec.Typed.Enums
import Verif.Spec.Typed.Files
import Verif.Spec.Typed.Fonts
import Verif.Spec.Typed.Forms
import Verif.Spec.Typed.Functions
import Verif.Spec.Typed.Maps
import Verif.Spec.Typed.Object
import Verif.Spec.Typed.Pattern
import Verif.Spec.Typed.Renditions
import Verif.Spec.Typed.Resources
import Verif.Spec.Typed.Structure
import Verif.Spec.Typed.Transitions
import Verif.Spec.Typed.XObject
import Verif.Spec.Unwind
import Verif.Spec.Viewing
import Verif.Spec.XObjects
