import Verif.Proof.Ptr
import Verif.Model.Builder
import Verif.Spec.Value
import Verif.Proof.Mem
import Verif.Model.Copy
import Verif.Proof.Builder
import Verif.Proof.Val
import Verif.Proof.Copy
import Verif.Model.Endof
import Verif.Proof.Lay
import Verif.Proof.Endof
import Verif.Model.Struct
import Verif.Spec.Object
import Verif.Proof.Struct
import Verif.Proof.Strict
import Verif.Proof.Object
import Verif.Model.Buffered
import Verif.Spec.Stream
import Verif.Model.Message
import Verif.Proof.Buffered
import Verif.Proof.Message
import Verif.Proof.Frame
import Verif.Proof.Reader
import Verif.Proof.Dumps
import Verif.Proof.Canon
import Verif.Props.Pointers
import Verif.Props.Memory
import Verif.Props.Copy
import Verif.Props.Streams
import Verif.Props.Message
import Verif.Proof.List
import Verif.Props.Fields
import Verif.Props.Builder
import Verif.Model.List
import Verif.Spec.Slice
import Verif.Spec.ListBuild
import Verif.Proof.Slice
import Verif.Proof.ListWrite
import Verif.Props.ListRead
import Verif.Props.ListWrite
import Verif.Spec.ListEq
import Verif.Proof.ListEq
import Verif.Props.ListEq
import Verif.Props.Hash
import Verif.Props.Names
import Verif.Model.Ctor
import Verif.Spec.Ctor
import Verif.Proof.CtorBuild
import Verif.Proof.CtorBits
import Verif.Proof.CtorSlot
import Verif.Proof.CtorNodes
import Verif.Proof.CtorRead
import Verif.Proof.Ctor
import Verif.Proof.CtorDefault
import Verif.Props.Ctor
import Verif.Model.Options
import Verif.Spec.Options
import Verif.Props.Options
import Verif.Model.Loader
import Verif.Proof.Loader
import Verif.Props.Loader
import Verif.Model.Annotation
import Verif.Props.Annotation
import Verif.Model.AnyPointer
import Verif.Props.AnyPointer
import Verif.Model.Pickle
import Verif.Props.Pickle
import Verif.Proof.CopySafe
import Verif.Props.CopySafe
import Verif.Model.PyxCopy
import Verif.Spec.Reach
import Verif.Proof.PyxCopy
import Verif.Props.PyxCopy
import Verif.Model.PtrC
import Verif.Proof.PtrC
import Verif.Props.PtrC
import Verif.Model.Packing
import Verif.Props.Packing
import Verif.Model.PyxList
import Verif.Proof.PyxList
import Verif.Props.PyxList
import Verif.Model.Repr
import Verif.Spec.Repr
import Verif.Proof.Repr
import Verif.Proof.ReprParse
import Verif.Proof.ReprMain
import Verif.Props.Repr
import Verif.Model.Module
import Verif.Spec.Module
import Verif.Proof.ModuleNames
import Verif.Proof.ModuleEmit
import Verif.Proof.ModuleExec
import Verif.Proof.ModuleDefs
import Verif.Proof.ModuleRun
import Verif.Props.Module
import Verif.Props.ModuleExamples
import Verif.Model.CyReader
import Verif.Proof.CyReader
import Verif.Props.CyReader
import Verif.Model.CyMessage
import Verif.Proof.CyMessage
import Verif.Props.CyMessage
import Verif.Model.CyCtor
import Verif.Spec.Compiled
import Verif.Proof.CyCtorBuild
import Verif.Proof.CyCtor
import Verif.Props.CyCtor
import Verif.Spec.Typed
import Verif.Proof.CtorTyped
import Verif.Props.Typed
import Verif.Spec.CtorCompact
import Verif.Proof.CtorCompact
import Verif.Props.CtorCompact
import Verif.Model.Group
import Verif.Spec.Group
import Verif.Spec.VirtualGroup
import Verif.Proof.Group
import Verif.Proof.VirtualGroup
import Verif.Props.Group
import Verif.Props.VirtualGroup
import Verif.Model.Cli
import Verif.Model.Build
import Verif.Spec.Build
import Verif.Props.Cli
import Verif.Props.Build
import Verif.Model.KeyRead
import Verif.Spec.KeyRead
import Verif.Proof.KeyRead
import Verif.Props.KeyRead
import Verif.Spec.Evolve
import Verif.Proof.Evolve
import Verif.Proof.EvolveUnion
import Verif.Props.Evolve
import Verif.Spec.Extent
import Verif.Proof.Extent
import Verif.Props.Extent
import Verif.Model.Session
import Verif.Props.Session
import Verif.Model.Text
import Verif.Spec.Text
import Verif.Proof.Text
import Verif.Props.Text
import Verif.Model.Imports
import Verif.Spec.Imports
import Verif.Proof.Imports
import Verif.Props.Imports
import Verif.Model.Reflection
import Verif.Spec.Reflection
import Verif.Proof.Reflection
import Verif.Proof.ReflectionEmit
import Verif.Props.Reflection
import Verif.Props.ReflectionExamples
import Verif.Model.SysModules
import Verif.Spec.SysModules
import Verif.Proof.SysModules
import Verif.Props.SysModules
import Verif.Model.PyExpr
import Verif.Model.Const
import Verif.Spec.Const
import Verif.Proof.PyExpr
import Verif.Proof.Const
import Verif.Props.Const
import Verif.Model.Extend
import Verif.Spec.Extend
import Verif.Proof.Extend
import Verif.Props.Extend
import Verif.Model.CyAccess
import Verif.Spec.Interop
import Verif.Proof.CyAccess
import Verif.Proof.CtorValue
import Verif.Props.Interop
import Verif.Model.KeyMore
import Verif.Spec.KeyMore
import Verif.Proof.KeyMore
import Verif.Props.KeyMore
import Verif.Model.OptionFlow
import Verif.Spec.OptionFlow
import Verif.Props.OptionFlow
import Verif.Model.FieldEmit
import Verif.Spec.FieldEmit
import Verif.Proof.FieldEmit
import Verif.Props.FieldEmit
import Verif.Props.FieldWrite
import Verif.Model.StructEmit
import Verif.Spec.StructEmit
import Verif.Proof.StructEmit
import Verif.Proof.StructEmitGet
import Verif.Props.StructEmit
import Verif.Props.NewMember
import Verif.Props.ReprEmit
import Verif.Props.TagEmit
