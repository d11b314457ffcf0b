import Verif.Props.C01_C04
import Verif.Props.C05_C07
import Verif.Props.C08_C09
import Verif.Props.C10_C13
import Verif.Props.C14_C15
import Verif.Props.C16
import Verif.Props.C17
import Verif.Props.C18_C19
import Verif.Props.C20_C21
import Verif.Props.C22_C25
import Verif.Props.C26_C27
import Verif.Props.C28
import Verif.Props.C28b
import Verif.Props.C29
import Verif.Props.C52_C55
import Verif.Props.C30
import Verif.Props.C31_C33
import Verif.Props.C34
import Verif.Props.C35_C38
import Verif.Props.C36
import Verif.Props.C37
import Verif.Props.C42
import Verif.Props.C39
import Verif.Props.C41
import Verif.Props.C40
import Verif.Props.C56
import Verif.Props.C40Sound
import Verif.Props.C57
import Verif.Props.C44
import Verif.Props.C46
import Verif.Props.C47
import Verif.Props.C58
import Verif.Props.C48
import Verif.Props.C59
import Verif.Props.C60
import Verif.Props.C61
import Verif.Props.C61b
import Verif.Props.C62
import Verif.Props.C26b
import Verif.Props.C27b
import Verif.Props.C27c
import Verif.Props.C63
import Verif.Props.C54
import Verif.Props.C49
import Verif.Props.C50
import Verif.Props.C51
import Verif.Props.C64
import Verif.Props.C65
import Verif.Props.C66
import Verif.Props.C67
import Verif.Props.C68_C69
import Verif.Props.C70
import Verif.Props.C71
import Verif.Props.C48b
import Verif.Spec.SqlConstraints
import Verif.Lemmas.DbLoad
import Verif.Props.C72
import Verif.Props.C72b
import Verif.Spec.Templates
import Verif.Props.C73
import Verif.Props.C64b
import Verif.Lemmas.Norm
import Verif.Lemmas.NormGroup
import Verif.Spec.Reread
import Verif.Props.C74
import Verif.Model.Files
import Verif.Spec.Files
import Verif.Lemmas.Files
import Verif.Props.C75
import Verif.Props.C76
import Verif.Props.C77
import Verif.Props.C78
import Verif.Props.C79
import Verif.Props.C80
import Verif.Props.C16b
import Verif.Props.C81
import Verif.Props.C81b
import Verif.Model.Markdown
import Verif.Spec.Markdown
import Verif.Props.C82
import Verif.Props.C82b
import Verif.Props.C82c
import Verif.Props.C82d
import Verif.Props.C82e
import Verif.Props.C80b
import Verif.Props.C57b
import Verif.Model.Single
import Verif.Model.Commands
import Verif.Lemmas.Commands
import Verif.Props.C83
import Verif.Props.C83b
import Verif.Props.C83c
import Verif.Props.C84
import Verif.Props.C85
import Verif.Props.C85b
import Verif.Props.C85c
import Verif.Props.C86
import Verif.Props.C86b
import Verif.Props.C87
import Verif.Props.C87b
import Verif.Props.C88
import Verif.Props.C88b
import Verif.Props.C89b
import Verif.Lemmas.Rewarn
import Verif.Lemmas.Rewarn2
import Verif.Lemmas.Rewarn3
import Verif.Lemmas.Rewarn4
import Verif.Spec.Rewarn
import Verif.Props.C90
import Verif.Props.C91
import Verif.Props.C91b
import Verif.Lemmas.Distinct
import Verif.Lemmas.Distinct2
import Verif.Props.C92
import Verif.Model.SingleFile
import Verif.Props.C93
import Verif.Props.C93b
import Verif.Model.Newlines
import Verif.Lemmas.Newlines
import Verif.Props.C94
import Verif.Props.C95
import Verif.Model.Encoding
import Verif.Spec.Encoding
import Verif.Props.C96
import Verif.Props.C96b
import Verif.Model.Terminators
import Verif.Lemmas.Coarse
import Verif.Props.C97
import Verif.Lemmas.CoarseRt
import Verif.Props.C97b
import Verif.Props.C97c
