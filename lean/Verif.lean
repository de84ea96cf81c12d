import Verif.Basic
import Verif.Model.Lexer
import Verif.Model.Parser
import Verif.Model.Obj
import Verif.Model.Mtl
import Verif.Spec.Lexer
import Verif.Proofs.Tokens
import Verif.Proofs.Lexer
import Verif.Proofs.Sim
import Verif.Proofs.SimMtl
import Verif.Proofs.SimObj
import Verif.Proofs.Yields
import Verif.Spec.Obj
import Verif.Proofs.ObjRefs
import Verif.Proofs.ObjStmts
import Verif.Proofs.ObjBody
import Verif.Proofs.ObjTables
import Verif.Proofs.ObjFile
import Verif.Proofs.Text
import Verif.Proofs.ObjTop
import Verif.Spec.Mtl
import Verif.Proofs.MtlFile
import Verif.Proofs.Text2
import Verif.Proofs.Congr
import Verif.Props.Lexing
import Verif.Spec.Attributes
import Verif.Proofs.ObjMeaning
import Verif.Proofs.ObjIndices
import Verif.Props.Samples
import Verif.Props.Tables
import Verif.Proofs.ObjLines
import Verif.Proofs.ObjUnique
import Verif.Proofs.MtlLines
import Verif.Proofs.Rerun
import Verif.Props.Robust
import Verif.Props.Language
import Verif.Props.Objects
import Verif.Props.Materials
import Verif.Props.RoundTrip
import Verif.Props.Display
import Verif.Model.Checked
import Verif.Model.Machine
import Verif.Proofs.Checked
import Verif.Proofs.CheckedTop
import Verif.Proofs.Machine
import Verif.Props.Counters
import Verif.Proofs.Twin
import Verif.Props.Exact
import Verif.Proofs.Profile
import Verif.Proofs.Stable
import Verif.Props.Stability
import Verif.Proofs.Size
import Verif.Props.Size
import Verif.Proofs.Restrict
import Verif.Proofs.Cut
import Verif.Props.Local
import Verif.Props.Edit
import Verif.Spec.Doc
import Verif.Proofs.Doc
import Verif.Props.Documented
import Verif.Proofs.Floats
import Verif.Props.Errors
import Verif.Proofs.Swap
import Verif.Props.Order
import Verif.Props.Writing
import Verif.Proofs.Cost
import Verif.Props.Cost
import Verif.Model.Compare
import Verif.Props.Compare
import Verif.Tests.CrateTests
import Verif.Proofs.Framed
import Verif.Props.Methods
import Verif.Props.Relocate
import Verif.Proofs.Splice
import Verif.Props.Split
import Verif.Props.Summary
import Verif.Props.Override
import Verif.Props.Rename
import Verif.Props.Float
import Verif.Props.FloatOrder
import Verif.Proofs.Digits
import Verif.Model.Reads
import Verif.Props.Reads
import Verif.Props.DisplayAny
import Verif.Props.Resume
import Verif.Props.Scene
import Verif.Props.Grow
import Verif.Props.Image
import Verif.Props.LexerMethods
import Verif.Props.LongNumerals
import Verif.Props.Named
import Verif.Model.Width
import Verif.Proofs.Width
import Verif.Proofs.WidthObj
import Verif.Proofs.WidthTop
import Verif.Props.Width
import Verif.Props.Mesh
import Verif.Props.Regular
import Verif.Props.Context
import Verif.Props.ContextMtl
import Verif.Model.Default
import Verif.Props.Defaults
import Verif.Props.Convex
import Verif.Props.Winding
import Verif.Model.Debug
import Verif.Proofs.Debug
import Verif.Props.Debug
import Verif.Props.Strings
import Verif.Model.WidthDisplay
import Verif.Props.WidthDisplay
import Verif.Props.Euler
import Verif.Model.Clone
import Verif.Props.Clone
import Verif.Model.Pretty
import Verif.Proofs.Pretty
import Verif.Props.Pretty
import Verif.Proofs.Layout
import Verif.Props.Layout
