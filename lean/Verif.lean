import Verif.Props.Combining
import Verif.Props.Target
import Verif.Props.Safety
import Verif.Props.Designator
import Verif.Props.Functions
import Verif.Props.Determinism
import Verif.Props.Constants
import Verif.Props.FunctionMap
import Verif.Props.Setters
import Verif.Props.Containers
import Verif.Props.Readers
import Verif.Props.Finder
import Verif.Props.Context
import Verif.Props.ContextDocs
import Verif.Props.Semantics
import Verif.Props.Loading
import Verif.Props.EndToEnd
import Verif.Props.Relevance
import Verif.Props.Growth
import Verif.Props.XPath
import Verif.Props.FunctionNames
import Verif.Props.Threads
import Verif.Props.MapThreads
import Verif.Props.Copying
import Verif.Props.PrettyPrint
import Verif.Props.PrettyPrintLxml
import Verif.Props.NsRegistry
import Verif.Props.Modules
import Verif.Props.Comparison
import Verif.Props.Attributes
import Verif.Props.Creation
import Verif.Props.UrlFetch
import Verif.Props.XmlLibrary
import Verif.Props.Queries
import Verif.Props.Regroup
import Verif.Props.Sending
import Verif.Props.Selecting
import Verif.Props.Agreement
import Verif.Props.Faults
import Verif.Props.Reordering
import Verif.Props.Renaming
import Verif.Spec.Refactor
import Verif.Props.Refactor
import Verif.Model.Extension
import Verif.Spec.Extension
import Verif.Lemmas.Extension
import Verif.Lemmas.ExtensionReading
import Verif.Lemmas.ExtensionEval
import Verif.Lemmas.Override
import Verif.Props.Extension
import Verif.Spec.Snapshot
import Verif.Lemmas.Snapshot
import Verif.Props.Snapshot
import Verif.Model.PrintThreads
import Verif.Spec.PrintThreads
import Verif.Lemmas.PrintThreads
import Verif.Props.PrintThreads
import Verif.Spec.Space
import Verif.Props.Space
import Verif.Model.QName
import Verif.Spec.QName
import Verif.Props.QName
import Verif.Spec.Vocabulary
import Verif.Props.Vocabulary
import Verif.Spec.Rejections
import Verif.Props.Rejections
import Verif.Spec.MoreAttributes
import Verif.Props.MoreAttributes
import Verif.Spec.Recoding
import Verif.Props.Recoding
import Verif.Spec.Rejecting
import Verif.Props.Rejecting
import Verif.Spec.RejectingContexts
import Verif.Props.RejectingContexts
import Verif.Spec.Mirror
import Verif.Props.Mirror
import Verif.Spec.Repeating
import Verif.Props.Repeating
import Verif.Spec.Restricting
import Verif.Props.Restricting
import Verif.Spec.Conditions
import Verif.Props.Conditions
import Verif.Spec.Formulas
import Verif.Props.Formulas
import Verif.Spec.Defaults
import Verif.Props.Defaults
import Verif.Spec.Facts
import Verif.Props.Facts
import Verif.Spec.DeadRules
import Verif.Props.DeadRules
import Verif.Spec.Excerpts
import Verif.Props.Excerpts
