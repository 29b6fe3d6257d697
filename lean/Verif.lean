import Verif.Props.Leaf
import Verif.Props.Arrays
import Verif.Props.Values
import Verif.Props.Nested
import Verif.Props.Order
import Verif.Props.Derive
import Verif.Props.Tokens
import Verif.Props.Discr
import Verif.Props.Set
import Verif.Props.Map
import Verif.Props.Own
import Verif.Props.TotalMap
import Verif.Props.ArrayView
import Verif.Props.ExactSize
import Verif.Props.Consume
import Verif.Props.Rebuild
import Verif.Props.Atomic
import Verif.Props.Debug
import Verif.Props.Exact
import Verif.Props.Clone
import Verif.Props.Sound
import Verif.Model.Hygiene
import Verif.Props.Hygiene
import Verif.Model.Generics
import Verif.Props.Generics
import Verif.Props.Unwind
import Verif.Props.FromIter
import Verif.Props.SetStorage
import Verif.Props.Locality
import Verif.Props.Effect
import Verif.Props.Names
import Verif.Model.EffectDerive
import Verif.Props.EffectDerive
import Verif.Model.EffectDebug
import Verif.Props.EffectDebug
import Verif.Model.Source
import Verif.SpecSource
import Verif.Props.Source
import Verif.Model.Run
import Verif.Lemmas.Run
import Verif.Lemmas.RunItems
import Verif.Props.Run
import Verif.Model.Caught
import Verif.SpecCaught
import Verif.Lemmas.Caught
import Verif.Lemmas.CaughtIter
import Verif.Lemmas.CaughtDrain
import Verif.Lemmas.CaughtMap
import Verif.Lemmas.CaughtSet
import Verif.Lemmas.CaughtSame
import Verif.Props.Caught
import Verif.Model.CaughtIter
import Verif.SpecCaughtIter
import Verif.Lemmas.CaughtCall
import Verif.Lemmas.CaughtDrift
import Verif.Props.CaughtIter
import Verif.SpecCaughtDrain
import Verif.Lemmas.CaughtDraining
import Verif.Props.CaughtDrain
import Verif.Model.CaughtRetain
import Verif.SpecCaughtRetain
import Verif.Lemmas.CaughtRetain
import Verif.Props.CaughtRetain
import Verif.Model.CaughtAtomic
import Verif.SpecCaughtAtomic
import Verif.Props.CaughtAtomic
import Verif.Model.Tests
import Verif.Lemmas.Tests
import Verif.Lemmas.TestsQc
import Verif.Props.Tests
import Verif.Model.Compile
import Verif.Props.Compile
import Verif.Model.AutoTraits
import Verif.SpecAutoTraits
import Verif.Props.AutoTraits
import Verif.SpecLedger
import Verif.Lemmas.Ledger
import Verif.Lemmas.LedgerSafe
import Verif.Props.Ledger
import Verif.Model.Recursive
import Verif.Lemmas.Recursive
import Verif.Props.Recursive
import Verif.SpecFormat
import Verif.Model.Format
import Verif.Lemmas.Format
import Verif.Props.Format
import Verif.SpecCloneOwn
import Verif.Model.CloneOwn
import Verif.Lemmas.CloneOwn
import Verif.Props.CloneOwn
import Verif.Text.Lex
import Verif.Text.Syntax
import Verif.Text.Parse
import Verif.Text.Files
import Verif.Text.Trees
import Verif.Text.Parsed
import Verif.Text.Run
import Verif.SpecText
import Verif.Text.Attr
import Verif.Text.Lemmas
import Verif.Text.Impls
import Verif.Text.ImplsNonZero
import Verif.Text.ImplsGeneric
import Verif.Text.ImplsArray
import Verif.Text.Lawful
import Verif.Props.Text
import Verif.Text.FilesSet
import Verif.Text.TreesSet
import Verif.Text.ParsedSet
import Verif.SpecTextSet
import Verif.Text.Mem
import Verif.Text.SetValues
import Verif.Text.SetWords
import Verif.Text.SetIter
import Verif.Text.SetMain
import Verif.Text.SetArray
import Verif.Text.Set64
import Verif.Text.SetSim
import Verif.Props.TextSet
import Verif.Text.Names
import Verif.Text.FilesMap
import Verif.Text.TreesMap
import Verif.Text.ParsedMap
import Verif.SpecTextMap
import Verif.Text.MapEnum
import Verif.Text.MapSkip
import Verif.Text.MapIters
import Verif.Text.MapMut
import Verif.Text.MapMain
import Verif.Text.MapSim
import Verif.Text.MapHist
import Verif.Text.MapTotal
import Verif.Text.MapNew
import Verif.Text.MapObs
import Verif.Props.TextMap
import Verif.Text.MapArray
import Verif.Text.MapArrayHist
import Verif.Props.TextArrayMap
import Verif.SpecTextTotal
import Verif.Text.MapTotalBox
import Verif.Text.TotalSim
import Verif.Text.TotalHist
import Verif.Text.TotalMain
import Verif.Text.TotalDefault
import Verif.Text.TotalAsMut
import Verif.Props.TextTotal
import Verif.SpecTextFns
import Verif.Text.TotalFns
import Verif.Text.MapRetain
import Verif.Props.TextFns
import Verif.Text.FilesAtomic
import Verif.Text.TreesAtomic
import Verif.Text.ParsedAtomic
import Verif.SpecTextAtomic
import Verif.Text.AtomicRun
import Verif.Props.TextAtomic
import Verif.Props.TextNested
import Verif.Text.FilesBuilder
import Verif.Text.TreesBuilder
import Verif.Text.ParsedBuilder
import Verif.SpecTextBuilder
import Verif.Text.BuilderRun
import Verif.Props.TextBuilder
import Verif.SpecTextDebug
import Verif.Text.DebugRun
import Verif.Text.DebugMaps
import Verif.Text.DebugSets
import Verif.Text.DebugObs
import Verif.Props.TextDebug
import Verif.SpecTextClone
import Verif.Text.CloneRun
import Verif.Props.TextClone
import Verif.SpecTextRef
import Verif.Props.TextRef
