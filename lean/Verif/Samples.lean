import Verif.Api
/-!
# Sample documents for the concrete cases beside the theorems
-/

namespace Ramrod.Samples

/-- Equality of outcomes is decidable (used only to evaluate examples). -/
instance {ε α : Type} [DecidableEq ε] [DecidableEq α] : DecidableEq (Except ε α)
  | .ok a, .ok b => if h : a = b then .isTrue (by rw [h]) else .isFalse (by simp [h])
  | .error a, .error b => if h : a = b then .isTrue (by rw [h]) else .isFalse (by simp [h])
  | .ok _, .error _ => .isFalse (by simp)
  | .error _, .ok _ => .isFalse (by simp)

/-- An element. -/
def el (ns name : String) (attrs : Attrs := []) (kids : List Node := []) (text : Option String := none)
    (decls : NsMap := []) : Node :=
  .elem ⟨⟨some ns, name⟩, decls, attrs, text, none⟩ kids

def nsStix : String := "http://stix.mitre.org/stix-1"
def nsCyboxCore : String := "http://cybox.mitre.org/cybox-2"
def at_ (n v : String) : QName × String := (.plain n, v)
def xsiType (v : String) : QName × String := (tagXsiType, v)

/-- A STIX package of version `v`. -/
def stixDoc (v : String) (kids : List Node) (attrs : Attrs := []) : Node :=
  el nsStix "STIX_Package" (at_ "version" v :: attrs) kids none
    [(some "stix", nsStix), (some "xsi", nsXsi), (some "stixVocabs", stixVocabNs), (some "ttp", nsTTP),
     (some "cyboxVocabs", cyboxVocabNs), (some "maec", nsMAEC), (some "capec", nsCAPEC25)]

/-- A CybOX document with the given version attributes. -/
def cyboxDoc (attrs : Attrs) (kids : List Node) : Node :=
  el nsCyboxCore "Observables" attrs kids none
    [(some "cybox", nsCyboxCore), (some "xsi", nsXsi), (some "cyboxVocabs", cyboxVocabNs)]

def v20 : Attrs := [at_ "cybox_major_version" "2", at_ "cybox_minor_version" "0"]
def v201 : Attrs := v20 ++ [at_ "cybox_update_version" "1"]

/-- An oracle world: all dates valid, no markup parses. -/
def w0 : World := ⟨fun _ => true, fun _ => none⟩

/-- Options with an id generator that numbers its results in unary. -/
def o0 : Options := { newId := fun n s => createNewId (String.ofList (List.replicate n 'x')) s }

/-- What a refusal for a wrong version records: the name of the element, the expected and the found version. -/
def wrongVersion {α : Type} : Except Err α → Option (Option QName × Option String × Option String)
  | .error (.invalidVersion n a b) => some (n.map (·.e.tag), a, b)
  | _ => none

/-- A 1.1.1 package with one outdated vocabulary value and one versioned incident. -/
def doc111 : Node :=
  stixDoc "1.1.1"
    [el nsStix "Incident" [at_ "version" "1.1.1", at_ "id" "a"]
      [el "http://stix.mitre.org/Incident-1" "Discovery_Method" [xsiType "stixVocabs:DiscoveryMethodVocab-1.0"] []
        (some "Fraud Detection")]]

/-- A 1.0 package with a MAEC instance (untranslatable) and a CAPEC instance below `ttp:Malware`. -/
def doc10bad : Node :=
  stixDoc "1.0"
    [el nsTTP "Malware" []
      [el nsTTP "Malware_Instance" [xsiType "maec:MAEC4.0InstanceType"] [] (some "m"),
       el nsTTP "Malware_Instance" [xsiType "capec:CAPEC2.5InstanceType"] [] (some "c")]]

/-- A 2.0.1 CybOX document with two objects sharing an id and an untranslatable header. -/
def cybox201bad : Node :=
  cyboxDoc v201
    [el nsCyboxCore "Observable" [at_ "id" "d"] [], el nsCyboxCore "Observable" [at_ "id" "d"] [],
     el nsHTTPSession "X_Forwarded_Proto" [] [] (some "https")]

end Ramrod.Samples
