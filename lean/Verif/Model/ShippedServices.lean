import Verif.Model.Labels
/-
  The messaging services shipped with the library: src/improtocols/*.desktop, built into the library by src/CMakeLists.txt:92-125; and the search
  for the file of a service, src/impp.cpp:166-199. Names are the untranslated ones (`Name=`): translations are not modelled.
-/
namespace KC

/-- What a desktop file says: the base name of the file, its `Name` and its `Icon` (empty if it has none). -/
structure ServiceFile where
  service : QString
  name : QString
  icon : QString
deriving DecidableEq

/-- The files in src/improtocols/. -/
def shippedServices : List ServiceFile :=
  [⟨q! "aim", q! "AIM", q! "im-aim"⟩,
   ⟨q! "delta", q! "Delta Chat", q! "im-delta"⟩,
   ⟨q! "discord", q! "Discord", q! "im-discord"⟩,
   ⟨q! "facebook", q! "Facebook", q! "im-facebook"⟩,
   ⟨q! "fluxer", q! "Fluxer", q! "im-fluxer"⟩,
   ⟨q! "gg", q! "Gadu-Gadu", q! "im-gadugadu"⟩,
   ⟨q! "googletalk", q! "Google Talk", q! "im-google"⟩,
   ⟨q! "groupwise", q! "GroupWise", q! "im-groupwise"⟩,
   ⟨q! "icq", q! "ICQ", q! "im-icq"⟩,
   ⟨q! "irc", q! "IRC", q! "im-irc"⟩,
   ⟨q! "matrix", q! "Matrix", []⟩,
   ⟨q! "meanwhile", q! "Meanwhile", q! "im-meanwhile"⟩,
   ⟨q! "msn", q! "MSN Messenger", q! "im-msn"⟩,
   ⟨q! "mumble", q! "Mumble", q! "im-mumble"⟩,
   ⟨q! "qq", q! "QQ", q! "im-qq"⟩,
   ⟨q! "rocketchat", q! "RocketChat", []⟩,
   ⟨q! "signal", q! "Signal", []⟩,
   ⟨q! "sip", q! "SIP", q! "internet-telephone"⟩,
   ⟨q! "skype", q! "Skype", q! "im-skype"⟩,
   ⟨q! "slack", q! "Slack", q! "im-slack"⟩,
   ⟨q! "sms", q! "SMS", q! "im-sms"⟩,
   ⟨q! "teams", q! "Microsoft Teams", q! "im-teams"⟩,
   ⟨q! "telegram", q! "Telegram", []⟩,
   ⟨q! "threema", q! "Threema", []⟩,
   ⟨q! "twitter", q! "Twitter", q! "im-twitter"⟩,
   ⟨q! "whatsapp", q! "WhatsApp", q! "im-whatsapp"⟩,
   ⟨q! "xmpp", q! "Jabber", q! "im-jabber"⟩,
   ⟨q! "ymsgr", q! "Yahoo", q! "im-yahoo"⟩]

/-- `improtcolFile`, impp.cpp:166-174: a file in one of the data directories (here: one list, in the order of the directories), else the built-in one. -/
def protocolFile (user : List ServiceFile) (service : QString) : Option ServiceFile :=
  (user.find? (·.service = service)).or (shippedServices.find? (·.service = service))

/-- `KDesktopFile::readName` of that file. -/
def serviceName (user : List ServiceFile) (service : QString) : QString := ((protocolFile user service).map (·.name)).getD []
/-- `Impp::serviceIcon`, impp.cpp:194-199. -/
def serviceIcon (user : List ServiceFile) (service : QString) : QString := ((protocolFile user service).map (·.icon)).getD []

/-- The directories that are searched by `Impp::serviceTypes`, as file names. -/
def serviceDirs (user : List ServiceFile) : List (List QString) := [user.map fun f => f.service ++ q! ".desktop", shippedServices.map fun f => f.service ++ q! ".desktop"]

end KC
