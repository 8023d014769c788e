import Verif.Model.Boot
import Verif.Props.Stack
import Verif.Props.Memory
import Verif.Props.Numbers
import Verif.Props.NumberText
import Verif.Props.Unused
import Verif.Props.Text
import Verif.Props.Execution
import Verif.Props.Dictionary
import Verif.Props.Boot
import Verif.Props.Control
import Verif.Props.Labels
import Verif.Props.Literals
import Verif.Props.Errors
import Verif.Props.Tasks
import Verif.Props.Exceptions
import Verif.Props.Files
import Verif.Props.Lines
import Verif.Props.Buffers
import Verif.Props.Recover
import Verif.Props.Crash
import Verif.Props.Counted
import Verif.Props.Times
import Verif.Props.Library
import Verif.Props.Sources
import Verif.Props.Facility
import Verif.Props.Does
import Verif.Props.Moves
import Verif.Props.Printing
import Verif.Props.Status
import Verif.Props.Quoting
import Verif.Props.Defining
import Verif.Props.Term
import Verif.Props.Args
import Verif.Props.Bounds
import Verif.Props.Reader
import Verif.Spec.Trace
import Verif.Lemmas.Trace
import Verif.Props.Trace
import Verif.Spec.Loader
import Verif.Lemmas.Beside
import Verif.Lemmas.Loader
import Verif.Props.Loader
import Verif.Spec.Session
import Verif.Lemmas.Session
import Verif.Lemmas.Failing
import Verif.Lemmas.ReplImage
import Verif.Props.Session
import Verif.Lemmas.Script
import Verif.Lemmas.Outline
import Verif.Lemmas.OutlineText
import Verif.Lemmas.Stand
import Verif.Lemmas.StandWords
import Verif.Lemmas.StandRun
import Verif.Lemmas.StandBody
import Verif.Lemmas.Marker
import Verif.Lemmas.StandBoot
import Verif.Lemmas.StandTables
import Verif.Lemmas.StandEnd
import Verif.Lemmas.StandCore
import Verif.Spec.Core
import Verif.Lemmas.StandLibrary
import Verif.Props.Core
import Verif.Model.RtfFth
import Verif.Model.Rtf
import Verif.Spec.Rtf
import Verif.Lemmas.StandRtf
import Verif.Lemmas.Cold
import Verif.Props.Rtf
import Verif.Model.Main
import Verif.Spec.Dialogue
import Verif.Spec.Teaching
import Verif.Lemmas.Numeral
import Verif.Lemmas.NumberText
import Verif.Lemmas.Calculator
import Verif.Lemmas.Running
import Verif.Lemmas.Typist
import Verif.Lemmas.Teach
import Verif.Lemmas.Conversation
import Verif.Props.Program
import Verif.Props.Teaching
import Verif.Props.Dialogue
