import Verif.Model.Builtins
import Verif.Model.Command
import Verif.Model.CoreLib
import Verif.Model.DocTables
import Verif.Model.Eval
import Verif.Model.Examples
import Verif.Model.Examples2
import Verif.Model.Examples3
import Verif.Model.Examples4
import Verif.Model.Examples5
import Verif.Model.Input
import Verif.Model.Limit
import Verif.Model.Main
import Verif.Model.Reader
import Verif.Model.State
import Verif.Model.Syntax
import Verif.Model.Version
import Verif.Model.Watch
import Verif.Spec.Arity
import Verif.Spec.Calls
import Verif.Spec.Command
import Verif.Spec.Core
import Verif.Spec.Ctl
import Verif.Spec.Device
import Verif.Spec.Docs
import Verif.Spec.Effects
import Verif.Spec.Eliza
import Verif.Spec.Encapsulation
import Verif.Spec.Eval
import Verif.Spec.FuzzLegal
import Verif.Spec.Galax
import Verif.Spec.Grammar
import Verif.Spec.Input
import Verif.Spec.Inside
import Verif.Spec.Lexical
import Verif.Spec.Library2
import Verif.Spec.LoopStack
import Verif.Spec.Loops
import Verif.Spec.Meta
import Verif.Spec.Names
import Verif.Spec.Plans
import Verif.Spec.Programs
import Verif.Spec.Reading
import Verif.Spec.Refactor
import Verif.Spec.Rename
import Verif.Spec.Rules
import Verif.Spec.Scopes
import Verif.Spec.ScreenTest
import Verif.Spec.Sentences
import Verif.Spec.Session
import Verif.Spec.Sorting
import Verif.Spec.Stack
import Verif.Spec.StackUse
import Verif.Spec.Status
import Verif.Spec.Straight
import Verif.Spec.Text
import Verif.Spec.Version
import Verif.Spec.Words
import Verif.Spec.World
import Verif.Spec.Written
import Verif.Lemmas.Calls
import Verif.Lemmas.Cont
import Verif.Lemmas.Core
import Verif.Lemmas.CoreChars
import Verif.Lemmas.CoreChunks
import Verif.Lemmas.CoreCtl
import Verif.Lemmas.CoreCxr
import Verif.Lemmas.CoreEnum
import Verif.Lemmas.CoreFns
import Verif.Lemmas.CoreGives
import Verif.Lemmas.CoreKnown
import Verif.Lemmas.CoreList
import Verif.Lemmas.CoreLoad
import Verif.Lemmas.CoreLoop
import Verif.Lemmas.CoreNum
import Verif.Lemmas.CorePlans
import Verif.Lemmas.CorePlans2
import Verif.Lemmas.CoreRest
import Verif.Lemmas.CoreSeq
import Verif.Lemmas.CoreText
import Verif.Lemmas.CoreText1
import Verif.Lemmas.CoreText2
import Verif.Lemmas.CoreText3
import Verif.Lemmas.CoreText4
import Verif.Lemmas.CoreThen
import Verif.Lemmas.CoreTmpl
import Verif.Lemmas.CoreWords
import Verif.Lemmas.Digits
import Verif.Lemmas.Docs
import Verif.Lemmas.Drawn
import Verif.Lemmas.Effects
import Verif.Lemmas.Eliza
import Verif.Lemmas.ElizaLoop
import Verif.Lemmas.ElizaMatch
import Verif.Lemmas.ElizaScript
import Verif.Lemmas.ElizaTalk
import Verif.Lemmas.ElizaTests
import Verif.Lemmas.ElizaText
import Verif.Lemmas.Encap
import Verif.Lemmas.ErrGrow
import Verif.Lemmas.Exact
import Verif.Lemmas.ExampleText
import Verif.Lemmas.Frame
import Verif.Lemmas.FuzzEval
import Verif.Lemmas.FuzzForever
import Verif.Lemmas.FuzzGen
import Verif.Lemmas.FuzzLoop
import Verif.Lemmas.Galax
import Verif.Lemmas.GalaxScript
import Verif.Lemmas.Gen
import Verif.Lemmas.Grows
import Verif.Lemmas.Heap
import Verif.Lemmas.Inv
import Verif.Lemmas.InvDoc
import Verif.Lemmas.InvEval
import Verif.Lemmas.InvRun
import Verif.Lemmas.Laws
import Verif.Lemmas.Lexer
import Verif.Lemmas.Limit
import Verif.Lemmas.Loops
import Verif.Lemmas.Loops2
import Verif.Lemmas.Meta
import Verif.Lemmas.MetaReport
import Verif.Lemmas.Monad
import Verif.Lemmas.Mono
import Verif.Lemmas.Overflow
import Verif.Lemmas.ProgFns
import Verif.Lemmas.Programs
import Verif.Lemmas.Reader
import Verif.Lemmas.Refactor
import Verif.Lemmas.Ren
import Verif.Lemmas.Rules
import Verif.Lemmas.RulesSound
import Verif.Lemmas.Scopes
import Verif.Lemmas.SenScript
import Verif.Lemmas.SenWords
import Verif.Lemmas.Sim
import Verif.Lemmas.SimEval
import Verif.Lemmas.SimNat
import Verif.Lemmas.SimRun
import Verif.Lemmas.Sorter
import Verif.Lemmas.Turns
import Verif.Lemmas.Under
import Verif.Lemmas.WatchRun
import Verif.Lemmas.Within
import Verif.Lemmas.WithinCore
import Verif.Lemmas.WithinLoop
import Verif.Lemmas.World
import Verif.Props.Arity
import Verif.Props.ByteOrder
import Verif.Props.Cases
import Verif.Props.Command
import Verif.Props.Control
import Verif.Props.Data
import Verif.Props.Docs
import Verif.Props.Effects
import Verif.Props.Eliza
import Verif.Props.Encapsulation
import Verif.Props.Errors
import Verif.Props.Forms
import Verif.Props.Functions
import Verif.Props.FuzzLegal
import Verif.Props.Galax
import Verif.Props.Input
import Verif.Props.Invariants
import Verif.Props.Lambda
import Verif.Props.Lexical
import Verif.Props.Library
import Verif.Props.LibraryCtl
import Verif.Props.LibraryRest
import Verif.Props.LibraryText
import Verif.Props.LoopStack
import Verif.Props.Loops
import Verif.Props.Macros
import Verif.Props.Meta
import Verif.Props.Natives
import Verif.Props.Numbers
import Verif.Props.Plans
import Verif.Props.Programs
import Verif.Props.ReadBack
import Verif.Props.Reader
import Verif.Props.Refactor
import Verif.Props.Rules
import Verif.Props.Scopes
import Verif.Props.Screen
import Verif.Props.ScreenTest
import Verif.Props.Sentences
import Verif.Props.Session
import Verif.Props.SortBy
import Verif.Props.SortByError
import Verif.Props.StackUse
import Verif.Props.Status
import Verif.Props.Straight
import Verif.Props.SyntaxErrors
import Verif.Props.Tail
import Verif.Props.Version
import Verif.Props.World
import Verif.Props.Written
