import Verif.Props.Names
import Verif.Props.Utils
import Verif.Props.Mark
import Verif.Props.Mask
import Verif.Props.Files
import Verif.Props.Args
import Verif.Props.Call
import Verif.Props.Matcher
import Verif.Props.Count
import Verif.Props.Dispatch
import Verif.Props.Tables
import Verif.Props.Scope
import Verif.Props.Imports
import Verif.Props.Uses
import Verif.Props.Helpers
import Verif.Props.Pipeline
import Verif.Props.Hoist
import Verif.Props.Ops
import Verif.Props.Bind
import Verif.Props.Custom
import Verif.Model.Template
import Verif.Spec.Template
import Verif.Model.Kwargs
import Verif.Spec.Arguments
import Verif.Lemmas.Template
import Verif.Lemmas.TemplateCalls
import Verif.Lemmas.TemplateKept
import Verif.Lemmas.TemplateOnce
import Verif.Props.Template
import Verif.Props.TemplateNegative
import Verif.Props.TemplateUser
import Verif.Spec.Python
import Verif.Lemmas.Python
import Verif.Lemmas.PythonText
import Verif.Lemmas.PythonLines
import Verif.Lemmas.PythonParse
import Verif.Lemmas.PythonPieces
import Verif.Lemmas.TemplateCode
import Verif.Lemmas.TemplateParse
import Verif.Props.TemplateCode
import Verif.Lemmas.PythonCall
import Verif.Props.PlainCode
import Verif.Model.Reduce
import Verif.Spec.Reduce
import Verif.Props.Reduce
import Verif.Spec.Spelling
import Verif.Lemmas.TemplateSame
import Verif.Lemmas.TemplateSpelling
import Verif.Props.Spelling
import Verif.Spec.Flags
import Verif.Spec.Negation
import Verif.Lemmas.TemplateFlag
import Verif.Props.Flags
import Verif.Props.Negation
import Verif.Props.Removed
import Verif.Model.Exclude
import Verif.Props.Exclude
import Verif.Props.Again
import Verif.Model.Basic
import Verif.Spec.Whole
import Verif.Lemmas.Free
import Verif.Lemmas.GenericCall
import Verif.Lemmas.BasicPass
import Verif.Props.Whole
import Verif.Model.Rename
import Verif.Spec.Members
import Verif.Lemmas.Members
import Verif.Props.Members
import Verif.Model.Value
import Verif.Spec.Value
import Verif.Lemmas.ValueRows
import Verif.Props.Value
import Verif.Model.HelperText
import Verif.Spec.Visible
import Verif.Lemmas.Visible
import Verif.Lemmas.VisibleTable
import Verif.Props.Visible
import Verif.Lemmas.HelperNames
import Verif.Props.HelperNames
import Verif.Props.Assigned
import Verif.Props.Formula
import Verif.Props.Batch
import Verif.Props.Boxes
import Verif.Props.Rotary
import Verif.Props.Scatter
import Verif.Props.Complete
import Verif.Props.Options
import Verif.Props.Schedule
import Verif.Props.Separate
import Verif.Props.Direct
import Verif.Props.Foreach
