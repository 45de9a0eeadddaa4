import Verif.Core.Str
import Verif.Core.Regex
import Verif.Core.Numerals
import Verif.Core.Prog
import Verif.Model.BaseRegistry
import Verif.Model.FallBack
import Verif.Model.Process
import Verif.Lib.Basic
import Verif.Lib.SampleEnv
import Verif.Lib.Analysis
import Verif.Lib.PlainGood
import Verif.Props.Names
import Verif.Props.Plain
import Verif.Props.Detect
import Verif.Props.Codes
import Verif.Props.Tables
import Verif.Props.Spelling
import Verif.Props.Numerals
import Verif.Props.Blocks
import Verif.Props.LangCodes
import Verif.Props.File
import Verif.Props.Shield
import Verif.Props.OptionOrder
import Verif.Props.Roman
import Verif.Props.RomanBack
import Verif.Props.Itrans
import Verif.Props.Velthuis
import Verif.Props.Unknown
import Verif.Props.LeftOver
import Verif.Props.Semitic
import Verif.Props.SemiticLatin
import Verif.Props.NoFail
import Verif.Props.Lines
import Verif.Props.Encoding
import Verif.Props.Abolish
import Verif.Props.Loc
import Verif.Props.AutoNoFail
import Verif.Props.Variants
import Verif.Props.Digits
import Verif.Props.RomanDigits
import Verif.Props.Repeat
