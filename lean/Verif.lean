import Verif.Base.Str
import Verif.Base.Err
import Verif.Xml.Chars
import Verif.Xml.Decode
import Verif.Xml.Tree
import Verif.Xml.Reader
import Verif.Xml.Resolve
import Verif.Model.Escape
import Verif.Model.Lxml
import Verif.Model.Types
import Verif.Model.Util
import Verif.Model.DataType
import Verif.Model.AttributeValue
import Verif.Model.AttributeDefinition
import Verif.Model.SpecType
import Verif.Model.SpecObject
import Verif.Model.Specification
import Verif.Model.Progress
import Verif.Model.Parser
import Verif.Model.Unparser
import Verif.Model.Bundle
import Verif.Model.Datetime
import Verif.Model.Archive
import Verif.Model.Validate
import Verif.Model.Anonymize
import Verif.Model.Schema
import Verif.Model.Commands
import Verif.Props.C01_06
import Verif.Props.C08_12
import Verif.Props.C13_17
import Verif.Props.C18_23
import Verif.Props.C07
import Verif.Props.C24_26
import Verif.Props.C25_31
import Verif.Props.C56_57
import Verif.Props.C52_55
import Verif.Props.C58_60
import Verif.Props.C60Doc
import Verif.Props.C32
import Verif.Props.C33
import Verif.Props.C34
import Verif.Props.C34_public
import Verif.Props.C35
import Verif.Props.C36
import Verif.Props.C37
import Verif.Props.C38_39
import Verif.Props.C40_41
import Verif.Props.C03_04
import Verif.Props.C42_45
import Verif.Props.C46
import Verif.Props.C47
import Verif.Props.C48
import Verif.Props.C49_51
import Verif.Props.C49Doc
import Verif.Props.C30
import Verif.Props.C61_62
import Verif.Props.C63
import Verif.Props.C64
import Verif.Props.C65
import Verif.Props.C66
import Verif.Props.C67
import Verif.Props.C68
import Verif.Props.C69
import Verif.Props.C70
import Verif.Props.C71
import Verif.Props.C72
import Verif.Props.C73
import Verif.Props.C74
import Verif.Props.C75
import Verif.Props.C76
import Verif.Props.C77
import Verif.Props.C77Tree
import Verif.Props.C78
import Verif.Props.C79
import Verif.Props.C80
import Verif.Props.C81
import Verif.Props.C82
import Verif.Props.C83
import Verif.Props.C84
import Verif.Props.C79_chars
import Verif.Props.C85
import Verif.Props.C86
import Verif.Props.C87
import Verif.Props.C88
import Verif.Props.C89
import Verif.Props.C90
import Verif.Props.C91
import Verif.Props.C92
import Verif.Props.C93
import Verif.Props.C94
import Verif.Props.C95
import Verif.Props.C96
import Verif.Props.C97
import Verif.Props.C98
import Verif.Props.C99
import Verif.Props.C100
import Verif.Props.C101
import Verif.Props.C102
import Verif.Props.C103
import Verif.Props.C104
import Verif.Props.C105
import Verif.Props.C106
import Verif.Props.C107
import Verif.Props.C108
import Verif.Props.C109
import Verif.Props.C109Written
