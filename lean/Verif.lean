import Verif.Str
import Verif.Utf8
import Verif.Unicode
import Verif.Regex.Syntax
import Verif.Regex.Parser
import Verif.Regex.Sem
import Verif.Model.Types
import Verif.Model.Container
import Verif.Model.Normalize
import Verif.Model.Nsn
import Verif.Model.Format
import Verif.Model.Parse
import Verif.Data.Shipped
import Verif.Data.Short1
import Verif.Data.Short2
import Verif.Data.Alt
import Verif.Spec.Basic
import Verif.Spec.Chars
import Verif.Spec.WellFormed
import Verif.Lemmas.Dec
import Verif.Lemmas.Normalize
import Verif.Lemmas.Container
import Verif.Lemmas.Str
import Verif.Regex.Lang
import Verif.Regex.Static
import Verif.Data.Wf
import Verif.Props.C01
import Verif.Props.C02
import Verif.Props.C03
import Verif.Props.C04
import Verif.Props.C05
import Verif.Props.C06
import Verif.Lemmas.ParseCore
import Verif.Lemmas.Template
import Verif.Lemmas.Viable
import Verif.Lemmas.Ext
import Verif.Lemmas.Plain
import Verif.Props.C07
import Verif.Props.C08
import Verif.Props.C09
import Verif.Props.C11
import Verif.Props.C12
import Verif.Props.C13
import Verif.Lemmas.Fast
import Verif.Lemmas.Tables
import Verif.Props.C15
import Verif.Props.C18
import Verif.Props.C22
import Verif.Props.C24
import Verif.Props.C30
import Verif.Props.C32
import Verif.Props.C33
import Verif.Lemmas.Valid
import Verif.Model.Use
import Verif.Props.C25
import Verif.Props.C26
import Verif.Props.C27
import Verif.Props.C28
import Verif.Props.C29
import Verif.Props.C50
import Verif.Props.C53
import Verif.Spec.Fields
import Verif.Spec.Formats
import Verif.Regex.Uni
import Verif.Regex.Plus
import Verif.Lemmas.FormatDigits
import Verif.Lemmas.NonEmpty
import Verif.Props.C16
import Verif.Props.C17
import Verif.Props.C23
import Verif.Regex.Acc
import Verif.Props.C19
import Verif.Props.C20
import Verif.Props.C21
import Verif.Props.C34
import Verif.Props.C35
import Verif.Props.C36
import Verif.Props.C10
import Verif.Props.C14
import Verif.Props.C31
import Verif.Props.C54
import Verif.Props.C55
import Verif.Props.C44
import Verif.Props.C47
import Verif.Model.Mapper
import Verif.Props.C45
import Verif.Props.C46
import Verif.Props.C56
import Verif.Props.C57
import Verif.Props.C48
import Verif.Props.C49
import Verif.Props.C58
import Verif.Props.C51
import Verif.Props.C52
import Verif.Props.C59
import Verif.Props.C60
import Verif.Props.C37
import Verif.Props.C39
import Verif.Props.C40
import Verif.Props.C38
import Verif.Props.C41
import Verif.Props.C42
import Verif.Props.C43
import Verif.Props.C61
import Verif.Props.C62
import Verif.Props.C63
import Verif.Props.C64
import Verif.Props.C65
import Verif.Props.C66
import Verif.Props.C67
import Verif.Props.C68
import Verif.Props.C69
import Verif.Props.C70
import Verif.Props.C71
import Verif.Props.C72
import Verif.Props.C73
import Verif.Props.C74
import Verif.Props.C75
import Verif.Props.C76
import Verif.Props.C77
import Verif.Props.C78
import Verif.Props.C79
import Verif.Props.C80
import Verif.Props.C81
import Verif.Props.C82
import Verif.Props.C83
import Verif.Props.C84
import Verif.Props.C85
import Verif.Props.C86
import Verif.Props.C87
import Verif.Props.C88
import Verif.Props.C89
import Verif.Props.C90
import Verif.Props.C91
import Verif.Props.C92
import Verif.Props.C93
import Verif.Props.C94
import Verif.Props.C95
import Verif.Props.C96
import Verif.Props.C97
import Verif.Props.C98
import Verif.Props.C99
import Verif.Props.C100
import Verif.Props.C101
import Verif.Props.C102
import Verif.Props.C103
import Verif.Props.C104
import Verif.Props.C105
import Verif.Props.C106
import Verif.Props.C107
import Verif.Props.C108
import Verif.Lemmas.LocalBlocks
import Verif.Lemmas.RuleAlign
import Verif.Props.C109
import Verif.Props.C110
import Verif.Props.C111
import Verif.Props.C112
import Verif.Props.C113
import Verif.Props.C114
import Verif.Props.C115
import Verif.Props.C116
import Verif.Props.C117
