import Verif.Model.ToText
import Verif.Spec.ToText
import Verif.Lemmas.ToText
import Verif.Lemmas.IsoDate
import Verif.Spec.IsoText
import Verif.Lemmas.CardNames
import Verif.Spec.Versions
import Verif.Qt.Basic
import Verif.Lemmas.Escape
import Verif.Spec.Merge
import Verif.Spec.Carriable
import Verif.Lemmas.MergeParts
import Verif.Lemmas.Passed
import Verif.Lemmas.Rewritten
import Verif.Props.C01
import Verif.Props.C02
import Verif.Qt.Base64
import Verif.Qt.Utf
import Verif.Spec.Text
import Verif.Props.C10
import Verif.Lemmas.Utf
import Verif.Props.C11
import Verif.Lemmas.Fold
import Verif.Props.C03
import Verif.Props.C04
import Verif.Props.C05
import Verif.Model.VCard
import Verif.Props.C12
import Verif.Model.Parser
import Verif.Props.C07
import Verif.Props.C08
import Verif.Props.C55
import Verif.Lemmas.Line
import Verif.Spec.Writable
import Verif.Lemmas.Content
import Verif.Lemmas.Card
import Verif.Lemmas.ReadJoin
import Verif.Props.C06
import Verif.Props.C09
import Verif.Props.C14
import Verif.Model.Values
import Verif.Model.Contact
import Verif.Lemmas.Keyed
import Verif.Lemmas.Built
import Verif.Lemmas.CardFrom
import Verif.Lemmas.LdifCard
import Verif.Spec.KeyedMap
import Verif.Lemmas.KeyedMap
import Verif.Props.C25
import Verif.Props.C27
import Verif.Props.C30
import Verif.Props.C31
import Verif.Props.C32
import Verif.Props.C50
import Verif.Props.C51
import Verif.Props.C52
import Verif.Model.Setters
import Verif.Model.Group
import Verif.Model.GroupMembers
import Verif.Model.GroupXml
import Verif.Props.C45
import Verif.Props.C46
import Verif.Props.C47
import Verif.Props.C54
import Verif.Props.C58
import Verif.Props.C59
import Verif.Props.C48
import Verif.Props.C49
import Verif.Props.C62
import Verif.Props.C63
import Verif.Props.C64
import Verif.Model.Shared
import Verif.Props.C33
import Verif.Model.ContactEq
import Verif.Props.C34
import Verif.Model.Stream
import Verif.Props.C35
import Verif.Model.DateTime
import Verif.Lemmas.DateTime
import Verif.Props.C15
import Verif.Props.C24
import Verif.Lemmas.Compute
import Verif.Props.C15Card
import Verif.Props.C16
import Verif.Props.C17
import Verif.Props.C18
import Verif.Props.C19
import Verif.Props.C20
import Verif.Props.C21
import Verif.Props.C22
import Verif.Props.C23
import Verif.Props.C24Limits
import Verif.Model.VCardTool
import Verif.Lemmas.ReadBack
import Verif.Lemmas.CarriedText
import Verif.Lemmas.Carried
import Verif.Spec.SafeText
import Verif.Spec.Coded
import Verif.Spec.Compared
import Verif.Spec.Carried
import Verif.Lemmas.SafeText
import Verif.Lemmas.LineForm
import Verif.Lemmas.TypeParam
import Verif.Lemmas.Flags
import Verif.Lemmas.CardOrder
import Verif.Lemmas.Cut
import Verif.Lemmas.Frame
import Verif.Spec.DateTime
import Verif.Spec.Readable
import Verif.Spec.Built
import Verif.Spec.Foreign
import Verif.Spec.LdifCard
import Verif.Spec.Filled
import Verif.Spec.Passed
import Verif.Spec.Sample
import Verif.Lemmas.Sections
import Verif.Lemmas.Components
import Verif.Lemmas.SecNames
import Verif.Lemmas.Fields1
import Verif.Lemmas.Fields2
import Verif.Lemmas.Fields3
import Verif.Lemmas.Fields4
import Verif.Lemmas.Fields5
import Verif.Lemmas.Fields6
import Verif.Lemmas.Fields7
import Verif.Lemmas.Whole
import Verif.Spec.MailText
import Verif.Spec.Messaging
import Verif.Lemmas.Messaging
import Verif.Model.Converter
import Verif.Props.C53
import Verif.Props.C56
import Verif.Model.Ldif
import Verif.Spec.Ldif
import Verif.Lemmas.Ldif
import Verif.Props.C38
import Verif.Props.C40
import Verif.Props.C42
import Verif.Model.LdifConverter
import Verif.Spec.LdifConverter
import Verif.Spec.LdifSpelling
import Verif.Spec.Parameters
import Verif.Spec.Encoded
import Verif.Lemmas.Parameters
import Verif.Spec.LdifEntry
import Verif.Spec.LdifChange
import Verif.Lemmas.LdifImport
import Verif.Lemmas.LdifExport
import Verif.Lemmas.LdifPairs
import Verif.Lemmas.LdifFields
import Verif.Lemmas.LdifEntry
import Verif.Lemmas.LdifBack
import Verif.Lemmas.LdifAgain
import Verif.Props.C43
import Verif.Props.C44
import Verif.Model.Names
import Verif.Model.NameWords
import Verif.Spec.Names
import Verif.Lemmas.Names
import Verif.Lemmas.Mail
import Verif.Props.C36
import Verif.Props.C37
import Verif.Props.C57
import Verif.Model.AddressFormat
import Verif.Spec.AddressFormat
import Verif.Lemmas.AddressFormat
import Verif.Lemmas.AddressFormatter
import Verif.Model.GeoLink
import Verif.Spec.GeoLink
import Verif.Lemmas.GeoLink
import Verif.Props.C65
import Verif.Model.Labels
import Verif.Model.ShippedServices
import Verif.Props.C66
import Verif.Props.C67
import Verif.Props.C68
import Verif.Props.C69
import Verif.Props.C70
import Verif.Props.C71
import Verif.Props.C72
import Verif.Props.C73
import Verif.Props.C74
import Verif.Model.ShippedFormats
import Verif.Conformance.Env
import Verif.Conformance.Roundtrip
import Verif.Conformance.Formats
import Verif.Conformance.Ldif
import Verif.Conformance.Small
import Verif.Props.C75
import Verif.Props.C76
import Verif.Props.C77
import Verif.Props.C78
import Verif.Props.C79
import Verif.Spec.CardEntry
import Verif.Lemmas.CardEntry
import Verif.Lemmas.CardFields
import Verif.Lemmas.CardFields2
import Verif.Lemmas.CardFields3
import Verif.Lemmas.CardFields4
import Verif.Lemmas.CardFields5
import Verif.Lemmas.CardFields6
import Verif.Props.C80
import Verif.Props.C81
import Verif.Props.C82
import Verif.Spec.Contained
import Verif.Lemmas.Heads
import Verif.Lemmas.HeadSections
import Verif.Lemmas.HeadRead
import Verif.Lemmas.HeadCount
import Verif.Props.C83
import Verif.Spec.LetterCase
import Verif.Lemmas.LetterCase
import Verif.Lemmas.LineSwap
import Verif.Lemmas.LineAgree
import Verif.Lemmas.Inserted
import Verif.Props.C84
import Verif.Spec.LdifOrder
import Verif.Model.Properties
import Verif.Spec.Properties
import Verif.Props.C85
import Verif.Props.C86
import Verif.Props.C87
import Verif.Props.C88
import Verif.Props.C89
import Verif.Props.C90
import Verif.Props.C91
import Verif.Props.C92
import Verif.Props.C93
import Verif.Props.C94
import Verif.Props.C95
import Verif.Props.C95Any
import Verif.Props.C96
import Verif.Props.C97
import Verif.Props.C98
import Verif.Props.C99
import Verif.Props.C100
import Verif.Props.C101
import Verif.Props.C102
import Verif.Props.C103
import Verif.Props.C104
import Verif.Props.C105
import Verif.Props.C106
import Verif.Props.C107
import Verif.Props.C108
import Verif.Props.C109
import Verif.Props.C110
import Verif.Props.C111
import Verif.Props.C112
import Verif.Props.C113
import Verif.Props.C114
import Verif.Props.C115
import Verif.Props.C116
import Verif.Props.C117
import Verif.Props.C118
import Verif.Props.C119
import Verif.Props.C120
import Verif.Props.C121
import Verif.Props.C122
import Verif.Props.C123
