import Verif.Model.ShippedServices
import Verif.Spec.Messaging
import Verif.Lemmas.SMap
/-
  C67. The list of messaging services
-/
namespace KC
namespace Spec

/-- A file name `service.desktop` or `service.….desktop`, with the service name up to the first '.'. -/
def DescribesService (file service : QString) : Prop :=
  qc! '.' ∉ service ∧ (file = service ++ q! ".desktop" ∨ ∃ middle, file = service ++ q! "." ++ middle ++ q! ".desktop")

/-- The services of the library, with the names a user is shown and the icons (made from the files in /repo/src/improtocols). -/
def servicesShown : List (QString × QString × QString) :=
  [(q! "aim", q! "AIM", q! "im-aim"),
   (q! "delta", q! "Delta Chat", q! "im-delta"),
   (q! "discord", q! "Discord", q! "im-discord"),
   (q! "facebook", q! "Facebook", q! "im-facebook"),
   (q! "fluxer", q! "Fluxer", q! "im-fluxer"),
   (q! "gg", q! "Gadu-Gadu", q! "im-gadugadu"),
   (q! "googletalk", q! "Google Talk", q! "im-google"),
   (q! "groupwise", q! "GroupWise", q! "im-groupwise"),
   (q! "icq", q! "ICQ", q! "im-icq"),
   (q! "irc", q! "IRC", q! "im-irc"),
   (q! "matrix", q! "Matrix", []),
   (q! "meanwhile", q! "Meanwhile", q! "im-meanwhile"),
   (q! "msn", q! "MSN Messenger", q! "im-msn"),
   (q! "mumble", q! "Mumble", q! "im-mumble"),
   (q! "qq", q! "QQ", q! "im-qq"),
   (q! "rocketchat", q! "RocketChat", []),
   (q! "signal", q! "Signal", []),
   (q! "sip", q! "SIP", q! "internet-telephone"),
   (q! "skype", q! "Skype", q! "im-skype"),
   (q! "slack", q! "Slack", q! "im-slack"),
   (q! "sms", q! "SMS", q! "im-sms"),
   (q! "teams", q! "Microsoft Teams", q! "im-teams"),
   (q! "telegram", q! "Telegram", []),
   (q! "threema", q! "Threema", []),
   (q! "twitter", q! "Twitter", q! "im-twitter"),
   (q! "whatsapp", q! "WhatsApp", q! "im-whatsapp"),
   (q! "xmpp", q! "Jabber", q! "im-jabber"),
   (q! "ymsgr", q! "Yahoo", q! "im-yahoo")]

end Spec
open Spec

/-! ### Sorting -/

theorem qlt_cases (a b : QString) : qlt a b = true ∨ a = b ∨ qlt b a = true := by
  cases h : qlt a b with
  | true => exact .inl rfl
  | false =>
    by_cases e : a = b
    · exact .inr (.inl e)
    · exact .inr (.inr (qlt_total h e))


theorem mem_insertSorted {x y : QString} {l : List QString} : y ∈ insertSorted x l ↔ y = x ∨ y ∈ l := by
  induction l with
  | nil => simp [insertSorted]
  | cons z l ih =>
    rw [insertSorted]
    split
    · simp only [List.mem_cons, ih]
      constructor
      · rintro (h | h | h)
        · exact .inr (.inl h)
        · exact .inl h
        · exact .inr (.inr h)
      · rintro (h | h | h)
        · exact .inr (.inl h)
        · exact .inl h
        · exact .inr (.inr h)
    · simp

theorem mem_sortStrings {y : QString} {l : List QString} : y ∈ sortStrings l ↔ y ∈ l := by
  unfold sortStrings
  induction l with
  | nil => simp
  | cons x l ih => rw [List.foldr_cons, mem_insertSorted, ih, List.mem_cons]

/-- ascending, equal neighbours allowed -/
def Ascending (l : List QString) : Prop := l.Pairwise fun a b => qlt b a = false

theorem insertSorted_asc {x : QString} {l : List QString} (h : Ascending l) : Ascending (insertSorted x l) := by
  induction l with
  | nil => simp [insertSorted, Ascending]
  | cons z l ih =>
    unfold Ascending at h ih ⊢
    rw [List.pairwise_cons] at h
    rw [insertSorted]
    split
    · rename_i hz
      refine List.pairwise_cons.2 ⟨?_, ih h.2⟩
      intro y hy
      rcases mem_insertSorted.1 hy with rfl | hy
      · cases e : qlt y z with
        | false => rfl
        | true => have := qlt_trans e hz; rw [qlt_irrefl] at this; cases this
      · exact h.1 y hy
    · rename_i hz
      have hz : qlt z x = false := by simpa using hz
      refine List.pairwise_cons.2 ⟨?_, List.pairwise_cons.2 h⟩
      intro y hy
      rcases List.mem_cons.1 hy with rfl | hy
      · exact hz
      · cases e : qlt y x with
        | false => rfl
        | true =>
          rcases qlt_cases y z with e2 | e2 | e2
          · rw [h.1 y hy] at e2; cases e2
          · rw [e2] at e; rw [e] at hz; cases hz
          · have := qlt_trans e2 e; rw [this] at hz; cases hz

theorem sortStrings_asc (l : List QString) : Ascending (sortStrings l) := by
  unfold sortStrings
  induction l with
  | nil => simp [Ascending]
  | cons x l ih => rw [List.foldr_cons]; exact insertSorted_asc ih

theorem mem_uniqueRuns {y : QString} {l : List QString} : y ∈ uniqueRuns l ↔ y ∈ l := by
  induction l with
  | nil => simp [uniqueRuns]
  | cons x l ih =>
    cases l with
    | nil => simp [uniqueRuns]
    | cons z l =>
      rw [uniqueRuns]
      split
      · rename_i e
        subst e
        rw [ih]; simp
      · rw [List.mem_cons, ih, List.mem_cons (a := y) (b := x)]

theorem uniqueRuns_asc {l : List QString} (h : Ascending l) : (uniqueRuns l).Pairwise fun a b => qlt a b = true := by
  induction l with
  | nil => simp [uniqueRuns]
  | cons x l ih =>
    cases l with
    | nil => simp [uniqueRuns]
    | cons z l =>
      unfold Ascending at h
      rw [List.pairwise_cons] at h
      rw [uniqueRuns]
      split
      · exact ih h.2
      · rename_i hne
        refine List.pairwise_cons.2 ⟨?_, ih h.2⟩
        intro y hy
        have hxz : qlt x z = true := by
          rcases qlt_cases x z with e | e | e
          · exact e
          · exact absurd e hne
          · rw [h.1 z (by simp)] at e; cases e
        rcases List.mem_cons.1 (mem_uniqueRuns.1 hy) with rfl | hy
        · exact hxz
        · have hzy := (List.pairwise_cons.1 h.2).1 y hy
          rcases qlt_cases z y with e | e | e
          · exact qlt_trans hxz e
          · rw [← e]; exact hxz
          · rw [hzy] at e; cases e

/-! ### File names -/

theorem takeWhile_dot (s t : QString) (h : qc! '.' ∉ s) : (s ++ qc! '.' :: t).takeWhile (· ≠ qc! '.') = s := by
  induction s with
  | nil => simp
  | cons c s ih =>
    have hc : c ≠ qc! '.' := fun e => h (by simp [e])
    rw [List.cons_append, List.takeWhile_cons_of_pos (by simpa using hc), ih fun hm => h (List.mem_cons_of_mem _ hm)]

theorem takeWhile_split (s : QString) (h : qc! '.' ∈ s) : ∃ a b, s = a ++ qc! '.' :: b ∧ qc! '.' ∉ a := by
  induction s with
  | nil => cases h
  | cons c s ih =>
    by_cases hc : c = qc! '.'
    · exact ⟨[], s, by simp [hc], by simp⟩
    · obtain ⟨a, b, e, ha⟩ := ih (by rcases List.mem_cons.1 h with e | e; exact absurd e.symm hc; exact e)
      refine ⟨c :: a, b, by rw [e]; rfl, ?_⟩
      intro hm
      rcases List.mem_cons.1 hm with e | e
      · exact hc e.symm
      · exact ha e

theorem fileSuffix_eq (a b : QString) (h : qc! '.' ∉ b) : fileSuffix (a ++ qc! '.' :: b) = b := by
  unfold fileSuffix
  rw [if_pos (by simp), List.reverse_append, List.reverse_cons, List.append_assoc]
  show (List.takeWhile _ (b.reverse ++ qc! '.' :: a.reverse)).reverse = b
  rw [takeWhile_dot _ _ (fun hm => h (List.mem_reverse.1 hm)), List.reverse_reverse]

theorem fileSuffix_desktop (f : QString) : fileSuffix f = q! "desktop" ↔ ∃ a, f = a ++ q! ".desktop" := by
  constructor
  · intro h
    unfold fileSuffix at h
    split at h
    · rename_i hd
      obtain ⟨a, b, e, ha⟩ := takeWhile_split f.reverse (List.mem_reverse.2 hd)
      rw [e, takeWhile_dot _ _ ha] at h
      refine ⟨b.reverse, ?_⟩
      have := congrArg List.reverse e
      rw [List.reverse_reverse, List.reverse_append, List.reverse_cons, h] at this
      rw [this, List.append_assoc]
      rfl
    · exact absurd h (by decide)
  · rintro ⟨a, rfl⟩
    exact fileSuffix_eq a (q! "desktop") (by decide)

theorem describes_iff (f s : QString) : (fileSuffix f = q! "desktop" ∧ fileBaseName f = s) ↔ DescribesService f s := by
  rw [fileSuffix_desktop]
  unfold DescribesService fileBaseName
  constructor
  · rintro ⟨⟨a, rfl⟩, rfl⟩
    by_cases hd : qc! '.' ∈ a
    · obtain ⟨x, y, rfl, hx⟩ := takeWhile_split a hd
      have e : x ++ qc! '.' :: y ++ q! ".desktop" = x ++ qc! '.' :: (y ++ q! ".desktop") := by simp
      rw [e, takeWhile_dot _ _ hx]
      exact ⟨hx, .inr ⟨y, by simp⟩⟩
    · have e : a ++ q! ".desktop" = a ++ qc! '.' :: q! "desktop" := rfl
      rw [e, takeWhile_dot _ _ hd]
      exact ⟨hd, .inl rfl⟩
  · rintro ⟨hs, rfl | ⟨m, rfl⟩⟩
    · exact ⟨⟨s, rfl⟩, takeWhile_dot s (q! "desktop") hs⟩
    · refine ⟨⟨s ++ q! "." ++ m, rfl⟩, ?_⟩
      have e : s ++ q! "." ++ m ++ q! ".desktop" = s ++ qc! '.' :: (m ++ q! ".desktop") := by simp
      rw [e, takeWhile_dot _ _ hs]

/-! ### The property -/

/-- **C67.** The list of services is strictly ascending, so no service occurs twice. -/
theorem C67_sorted (dirs : List (List QString)) : (serviceTypes dirs).Pairwise fun a b => qlt a b = true := uniqueRuns_asc (sortStrings_asc _)

/-- **C67.** It consists of exactly the services described by a desktop file in one of the directories. -/
theorem C67_exact (dirs : List (List QString)) (s : QString) : s ∈ serviceTypes dirs ↔ ∃ files ∈ dirs, ∃ f ∈ files, DescribesService f s := by
  unfold serviceTypes
  rw [mem_uniqueRuns, mem_sortStrings, List.mem_flatMap]
  constructor
  · rintro ⟨files, hf, hm⟩
    obtain ⟨f, hff, e⟩ := List.mem_map.1 hm
    rw [List.mem_filter, decide_eq_true_eq] at hff
    exact ⟨files, hf, f, hff.1, (describes_iff f s).1 ⟨hff.2, e⟩⟩
  · rintro ⟨files, hf, f, hff, hd⟩
    obtain ⟨h1, h2⟩ := (describes_iff f s).2 hd
    exact ⟨files, hf, List.mem_map.2 ⟨f, List.mem_filter.2 ⟨hff, by simpa using h1⟩, h2⟩⟩

/-- **C67.** The order of the directories, of the files in them, and files present several times make no difference. -/
theorem C67_order (dirs dirs' : List (List QString)) (h : ∀ f, (∃ files ∈ dirs, f ∈ files) ↔ ∃ files ∈ dirs', f ∈ files) :
    serviceTypes dirs = serviceTypes dirs' := by
  apply SMap.sorted_ext (C67_sorted dirs) (C67_sorted dirs')
  intro s
  rw [C67_exact, C67_exact]
  constructor
  · rintro ⟨files, hf, f, hm, hd⟩
    obtain ⟨files', hf', hm'⟩ := (h f).1 ⟨files, hf, hm⟩
    exact ⟨files', hf', f, hm', hd⟩
  · rintro ⟨files, hf, f, hm, hd⟩
    obtain ⟨files', hf', hm'⟩ := (h f).2 ⟨files, hf, hm⟩
    exact ⟨files', hf', f, hm', hd⟩

/-- **C67.** Every service, whether described by a file or not, has a label; the empty service has none. The label is the name given by the
    file, or else the service itself with a capital first letter. -/
theorem C67_label (readName : QString → QString) (s : QString) :
    (serviceLabel readName s = [] ↔ s = []) ∧ (s ≠ [] → readName s ≠ [] → serviceLabel readName s = readName s) ∧
    ∀ c t, s = c :: t → readName s = [] → serviceLabel readName s = upperQ c :: t := by
  cases s with
  | nil => simp [serviceLabel]
  | cons c t =>
    refine ⟨?_, ?_, ?_⟩
    · unfold serviceLabel
      simp only [reduceCtorEq, iff_false]
      split
      · simp
      · assumption
    · intro _ h
      simp only [serviceLabel, if_neg h]
    · intro c' t' e h
      cases e
      simp only [serviceLabel, if_pos h]

/-- **C67 is false** in this respect: a service on the list need not have a file of its name. The file `a.b.desktop` puts the service `a` on the
    list, whose label and icon are looked up in `a.desktop`. -/
theorem C67_lookup_false : ∃ dirs : List (List QString), ∃ s ∈ serviceTypes dirs, ∀ files ∈ dirs, s ++ q! ".desktop" ∉ files :=
  ⟨[[q! "a.b.desktop"]], q! "a", by decide, by decide⟩

/-- **C67.** A service on the list has a file of its name if no desktop file has a further '.' in its name. -/
theorem C67_lookup_partial (dirs : List (List QString)) (h : ∀ files ∈ dirs, ∀ f ∈ files, ∀ a b m, f ≠ a ++ q! "." ++ m ++ q! "." ++ b) :
    ∀ s ∈ serviceTypes dirs, ∃ files ∈ dirs, s ++ q! ".desktop" ∈ files := by
  intro s hs
  obtain ⟨files, hf, f, hm, _, hd | ⟨m, hd⟩⟩ := (C67_exact dirs s).1 hs
  · exact ⟨files, hf, hd ▸ hm⟩
  · refine absurd ?_ (h files hf f hm s (q! "desktop") m)
    rw [hd]
    simp

example : serviceTypes [[q! "icq.desktop", q! "readme.txt", q! "aim.desktop"], [q! "aim.desktop", q! "xmpp.desktop"]] = [q! "aim", q! "icq", q! "xmpp"] := by
  decide
example : serviceLabel (fun _ => []) (q! "matrix") = q! "Matrix" := by decide

/-! ### The services that are shipped -/

private theorem shipped_find : ∀ f ∈ shippedServices, shippedServices.find? (·.service = f.service) = some f := by decide +kernel

/-- **C67.** Whatever files the user has added, every shipped service is on the list; so is every service whose old custom field is still understood.
    Without a file of the user for it, a shipped service has the label and the icon of its own file. -/
theorem C67_shipped (user : List ServiceFile) :
    (∀ f ∈ shippedServices, f.service ∈ serviceTypes (serviceDirs user) ∧
      ((∀ u ∈ user, u.service ≠ f.service) → serviceLabel (serviceName user) f.service = f.name ∧ serviceIcon user f.service = f.icon)) ∧
    ∀ m ∈ messagingServices, m.scheme ∈ serviceTypes (serviceDirs user) := by
  have hin : ∀ f ∈ shippedServices, f.service ∈ serviceTypes (serviceDirs user) := fun f hf =>
    (C67_exact _ _).2 ⟨_, List.mem_cons_of_mem _ List.mem_cons_self, _, List.mem_map.2 ⟨f, hf, rfl⟩,
      (by decide : ∀ f ∈ shippedServices, qc! '.' ∉ f.service) f hf, .inl rfl⟩
  refine ⟨fun f hf => ⟨hin f hf, fun hu => ?_⟩, fun m hm => ?_⟩
  · have h0 : user.find? (·.service = f.service) = none := by
      rw [List.find?_eq_none]
      intro u hm
      simpa using hu u hm
    have h1 : protocolFile user f.service = some f := by rw [protocolFile, h0, Option.none_or, shipped_find f hf]
    have hne := (by decide : ∀ f ∈ shippedServices, f.name ≠ [] ∧ f.service ≠ []) f hf
    have hn : serviceName user f.service = f.name := by rw [serviceName, h1]; rfl
    refine ⟨?_, by rw [serviceIcon, h1]; rfl⟩
    rw [(C67_label (serviceName user) f.service).2.1 hne.2 (by rw [hn]; exact hne.1), hn]
  · obtain ⟨f, hf, e⟩ := (by decide : ∀ m ∈ messagingServices, ∃ f ∈ shippedServices, f.service = m.scheme) m hm
    exact e ▸ hin f hf

/-- **C67.** A file of the user is preferred to the shipped one, also for a service that is not shipped. -/
theorem C67_user (before after : List ServiceFile) (f : ServiceFile) (hf : f.name ≠ [] ∧ f.service ≠ []) (hb : ∀ u ∈ before, u.service ≠ f.service) :
    serviceLabel (serviceName (before ++ f :: after)) f.service = f.name ∧ serviceIcon (before ++ f :: after) f.service = f.icon := by
  have h1 : protocolFile (before ++ f :: after) f.service = some f := by
    have : (before ++ f :: after).find? (·.service = f.service) = some f := by
      rw [List.find?_append, List.find?_eq_none.2 fun u hu => by simpa using hb u hu]
      simp
    rw [protocolFile, this]
    rfl
  have hn : serviceName (before ++ f :: after) f.service = f.name := by rw [serviceName, h1]; rfl
  refine ⟨?_, by rw [serviceIcon, h1]; rfl⟩
  rw [(C67_label (serviceName (before ++ f :: after)) f.service).2.1 hf.2 (by rw [hn]; exact hf.1), hn]

/-- **C67.** Without files of the user, the list is that of the shipped services, and no two services on it have the same label. -/
theorem C67_distinct : serviceTypes (serviceDirs []) = shippedServices.map (·.service) ∧
    ∀ s ∈ serviceTypes (serviceDirs []), ∀ t ∈ serviceTypes (serviceDirs []), serviceLabel (serviceName []) s = serviceLabel (serviceName []) t → s = t := by
  have h0 : serviceTypes (serviceDirs []) = shippedServices.map (·.service) := by decide +kernel
  refine ⟨h0, fun s hs t ht e => ?_⟩
  rw [h0, List.mem_map] at hs ht
  obtain ⟨f, hf, rfl⟩ := hs
  obtain ⟨g, hg, rfl⟩ := ht
  rw [(((C67_shipped []).1 f hf).2 (by simp)).1, (((C67_shipped []).1 g hg).2 (by simp)).1] at e
  exact (by decide +kernel : ∀ f ∈ shippedServices, ∀ g ∈ shippedServices, f.name = g.name → f.service = g.service) f hf g hg e

/-- **C67.** Without files of the user, the list of the services, with their labels and icons, is exactly this one. -/
theorem C67_shown : (serviceTypes (serviceDirs [])).map (fun s => (s, serviceLabel (serviceName []) s, serviceIcon [] s)) = servicesShown := by decide +kernel

/-- **C67 is false** in this respect: there are shipped services without an icon. -/
theorem C67_icon_false : ∃ f ∈ shippedServices, serviceIcon [] f.service = [] := ⟨⟨q! "matrix", q! "Matrix", []⟩, by decide +kernel, by decide +kernel⟩

example : serviceLabel (serviceName [⟨q! "icq", q! "My ICQ", []⟩]) (q! "icq") = q! "My ICQ" :=
  (C67_user [] [] ⟨q! "icq", q! "My ICQ", []⟩ (by decide) (by simp)).1

end KC
