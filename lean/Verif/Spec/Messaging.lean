import Verif.Spec.Readable
/-
  Specification: the messaging services that had a custom field `messaging/<service>-All` before the vCard property IMPP was supported;
  for each of them the name under which a vCard is exported, and the scheme of the service's addresses (the name of its protocol file in
  /repo/src/improtocols).
-/
namespace KC.Spec

/-- A service: its name in the old custom field, in exported vCards, and as scheme of an address. -/
structure Messaging where
  old : QString
  exported : QString
  scheme : QString
deriving DecidableEq

def messagingServices : List Messaging :=
  [⟨q! "aim", q! "X-AIM", q! "aim"⟩, ⟨q! "icq", q! "X-ICQ", q! "icq"⟩, ⟨q! "xmpp", q! "X-JABBER", q! "xmpp"⟩, ⟨q! "msn", q! "X-MSN", q! "msn"⟩,
   ⟨q! "yahoo", q! "X-YAHOO", q! "ymsgr"⟩, ⟨q! "gadu", q! "X-GADUGADU", q! "gg"⟩, ⟨q! "skype", q! "X-SKYPE", q! "skype"⟩,
   ⟨q! "groupwise", q! "X-GROUPWISE", q! "groupwise"⟩, ⟨q! "sms", q! "X-SMS", q! "sms"⟩, ⟨q! "meanwhile", q! "X-MEANWHILE", q! "meanwhile"⟩,
   ⟨q! "irc", q! "X-IRC", q! "irc"⟩, ⟨q! "googletalk", q! "X-GTALK", q! "googletalk"⟩, ⟨q! "twitter", q! "X-TWITTER", q! "twitter"⟩]

/-- The old custom field of a service: application "messaging/<service>", name "All". -/
def Messaging.app (m : Messaging) : QString := q! "messaging/" ++ m.old

/-- Several addresses in one field are separated by the private character U+E000. -/
def messagingAddresses (value : QString) : List QString := (splitOn 0xE000 value).filter (· ≠ [])

end KC.Spec
