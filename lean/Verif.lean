import Verif.Model.PyInt
import Verif.Spec.IntText
import Verif.Lemmas.PyInt
import Verif.Props.Pointer
import Verif.Props.Deref
import Verif.Props.Version
import Verif.Props.Store
import Verif.Props.Routes
import Verif.Props.Load
import Verif.Props.Dump
import Verif.Props.Resolve
import Verif.Props.Override
import Verif.Props.OverrideMany
import Verif.Props.ReuseMany
import Verif.Props.Merge
import Verif.Props.Compare
import Verif.Props.CompareExample
import Verif.Props.Children
import Verif.Props.Scan
import Verif.Props.Url
import Verif.Props.Url2
import Verif.Props.Container
import Verif.Props.Resolver
import Verif.Props.App
import Verif.Props.ConvSchema
import Verif.Props.ConvParam
import Verif.Props.ConvBody
import Verif.Props.ConvPath
import Verif.Props.ConvSwagger
import Verif.Props.ConvReloc
import Verif.Lemmas.Up12Total
import Verif.Lemmas.Up12Good
import Verif.Props.Up12
import Verif.Props.Up12More
import Verif.Model.PathItem
import Verif.Spec.PathItem
import Verif.Props.PathItem
import Verif.Model.Yaml
import Verif.Props.Yaml
import Verif.Model.Refs
import Verif.Spec.Refs
import Verif.Lemmas.Refs
import Verif.Lemmas.RefCalls
import Verif.Lemmas.RefNorm
import Verif.Lemmas.RefWhere
import Verif.Lemmas.RefRun
import Verif.Lemmas.RefOnce
import Verif.Lemmas.RefTotal
import Verif.Props.Refs
import Verif.Lemmas.ConvLoads
import Verif.Lemmas.ConvLoads2
import Verif.Props.ConvLoads
import Verif.Model.Getter
import Verif.Spec.Getter
import Verif.Props.Getter
import Verif.Model.Main
import Verif.Lemmas.Paths
import Verif.Lemmas.RefInv
import Verif.Lemmas.RefSteady
import Verif.Spec.Main
import Verif.Lemmas.MainHit
import Verif.Lemmas.Main20
import Verif.Lemmas.Main30
import Verif.Lemmas.MainRun
import Verif.Lemmas.MainSteps
import Verif.Lemmas.ConvCongr
import Verif.Lemmas.FineObj
import Verif.Lemmas.MainLoad
import Verif.Lemmas.MainCheck
import Verif.Spec.MainDoc
import Verif.Lemmas.MainDoc
import Verif.Props.Main
import Verif.Props.MainKinds
import Verif.Lemmas.MainEnv
import Verif.Lemmas.RefHas
import Verif.Lemmas.MainMoved
import Verif.Props.MainUp
import Verif.Spec.Convertible
import Verif.Props.ConvTotal
import Verif.Lemmas.MainDocCheck
import Verif.Props.MainUpExample
import Verif.Spec.Pieces
import Verif.Lemmas.Pieces
import Verif.Lemmas.PiecesRun
import Verif.Lemmas.PiecesMerge
import Verif.Lemmas.PiecesUp
import Verif.Lemmas.PiecesCheck
import Verif.Props.Pieces
import Verif.Props.PiecesExample
import Verif.Model.Renames
import Verif.Model.Meta
import Verif.Model.Statements
import Verif.Spec.Fields
import Verif.Props.Fields
import Verif.Props.Meta
import Verif.Props.NormUrl
import Verif.Spec.Version
import Verif.Props.Version2
import Verif.Props.ConvPathReloc
import Verif.Model.Attr
import Verif.Props.Attr
import Verif.Props.Reuse
import Verif.Spec.PiecesUp
import Verif.Lemmas.PiecesAgain
import Verif.Lemmas.PiecesEnv
import Verif.Lemmas.Pieces3
import Verif.Lemmas.Pieces3Run
import Verif.Lemmas.Pieces3Up
import Verif.Lemmas.Pieces3Stage
import Verif.Props.PiecesUp
import Verif.Props.PiecesUpExample
import Verif.Spec.Alone
import Verif.Lemmas.Alone
import Verif.Lemmas.AloneConv
import Verif.Props.Alone
import Verif.Props.AloneExample
import Verif.Spec.Native
import Verif.Lemmas.Native
import Verif.Lemmas.NativeRun
import Verif.Lemmas.NativeMerge
import Verif.Lemmas.NativeUp
import Verif.Lemmas.NativeCheck
import Verif.Props.Native
import Verif.Props.NativeExample
import Verif.Lemmas.Each
import Verif.Spec.Main12
import Verif.Lemmas.Main12
import Verif.Lemmas.Main12Steps
import Verif.Lemmas.Up12Refs
import Verif.Lemmas.Up12To3
import Verif.Props.Main12
import Verif.Props.Main12Example
import Verif.Model.Parent
import Verif.Model.Access
import Verif.Spec.Parent
import Verif.Lemmas.Parent
import Verif.Lemmas.ParentTree
import Verif.Props.Parent
import Verif.Props.Access
import Verif.Model.Scanner
import Verif.Props.Scanner
import Verif.Lemmas.PathRefs
import Verif.Spec.MainPaths
import Verif.Props.MainPaths
import Verif.Props.MainPathsExample
import Verif.Instances.Basic
import Verif.Instances.Store
import Verif.Instances.Objects
import Verif.Instances.Text
import Verif.Instances.App
import Verif.Props.AppStages
import Verif.Props.AppFails
import Verif.Props.ContainerSort
import Verif.Props.RootRef
import Verif.Props.Losses
import Verif.Instances.Losses
import Verif.Spec.Says
import Verif.Lemmas.Says
import Verif.Spec.Moved
import Verif.Props.Moved
import Verif.Props.MovedExample
import Verif.Spec.Redefine
import Verif.Props.Redefine
import Verif.Props.RedefineExample
import Verif.Props.RedefineRef
import Verif.Instances.Conv
import Verif.Instances.Up
import Verif.Instances.Rest
import Verif.Props.Stack
import Verif.Props.StackExample
import Verif.Model.PyAttrs
import Verif.Props.PyAttrs
import Verif.Model.Saved
import Verif.Spec.Saved
import Verif.Spec.SavedDoc
import Verif.Lemmas.Saved
import Verif.Lemmas.SavedDoc
import Verif.Lemmas.SavedTotal
import Verif.Props.Saved
import Verif.Spec.SavedTwo
import Verif.Props.SavedTwo
import Verif.Props.SavedExample
import Verif.Spec.CompareAt
import Verif.Props.CompareAt
