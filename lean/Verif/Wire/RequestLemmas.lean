import Verif.Wire.Request
import Verif.Wire.DetailProps
import Verif.Core.UrlEncodeProps
/-!
# Reading and writing authorization requests: lemmas
-/
namespace Verif.Wire

mutual

/-- A JSON value made of plain texts (`PlainText`: no character that JSON escapes, no `=` or `&`, no bracket at either end), without numbers. -/
def PlainJson : Json → Prop
  | .null => True
  | .bool _ => True
  | .num _ => False
  | .str s => PlainText s.toList
  | .arr l => PlainElems l
  | .obj m => PlainMembers m

/-- As `PlainJson`, of elements. -/
def PlainElems : List Json → Prop
  | [] => True
  | j :: l => PlainJson j ∧ PlainElems l

/-- As `PlainJson`, of members and their names. -/
def PlainMembers : List (String × Json) → Prop
  | [] => True
  | (k, j) :: l => PlainText k.toList ∧ PlainJson j ∧ PlainMembers l

end

mutual

theorem toS_plain : ∀ j : Json, PlainJson j → (toS j).Plain ∧ (toS j).json = j
  | .null, _ => ⟨trivial, rfl⟩
  | .bool _, _ => ⟨trivial, rfl⟩
  | .num _, h => by simp [PlainJson] at h
  | .str s, h => by simp only [PlainJson] at h; simp [toS, SVal.Plain, SVal.json, h]
  | .arr l, h => by
    simp only [PlainJson] at h
    have := toSs_plain l h
    simp [toS, SVal.Plain, SVal.json, this]
  | .obj m, h => by
    simp only [PlainJson] at h
    have := toSm_plain m h
    simp [toS, SVal.Plain, SVal.json, this]

theorem toSs_plain : ∀ l : List Json, PlainElems l → SVal.PlainArr (toSs l) ∧ SVal.jsonArr (toSs l) = l
  | [], _ => ⟨trivial, rfl⟩
  | j :: l, h => by
    simp only [PlainElems] at h
    have h1 := toS_plain j h.1
    have h2 := toSs_plain l h.2
    simp [toSs, SVal.PlainArr, SVal.jsonArr, h1, h2]

theorem toSm_plain : ∀ m : List (String × Json), PlainMembers m → SVal.PlainObj (toSm m) ∧ SVal.jsonObj (toSm m) = m
  | [], _ => ⟨trivial, rfl⟩
  | (k, j) :: l, h => by
    simp only [PlainMembers] at h
    have h1 := toS_plain j h.2.1
    have h2 := toSm_plain l h.2.2
    simp [toSm, SVal.PlainObj, SVal.jsonObj, h1, h2, h.1]

end

theorem plainMembers_append {a b : List (String × Json)} : PlainMembers (a ++ b) ↔ PlainMembers a ∧ PlainMembers b := by
  induction a with
  | nil => simp [PlainMembers]
  | cons p l ih => obtain ⟨k, j⟩ := p; simp [PlainMembers, ih, and_assoc]

theorem plainElems_iff {l : List Json} : PlainElems l ↔ ∀ j ∈ l, PlainJson j := by
  induction l with
  | nil => simp [PlainElems]
  | cons j l ih => simp [PlainElems, ih]

/-- Below the top level the serializer writes structs as it writes maps. -/
theorem ser_strct_nested (fs : List (String × SVal)) (h : SVal.PlainObj fs) (s : Ser) (hs : 2 ≤ s.level) : ser (.strct fs) s = ser (.map fs) s := by
  rw [ser_nested (.strct fs) (by simpa only [SVal.Plain] using h) s hs, ser_nested (.map fs) (by simpa only [SVal.Plain] using h) s hs]
  rfl

theorem read_redirectUri (o : Option String) (l : List (String × Json)) (obj : RequestObject) (uri : String) (h : obj.redirectUri = none) :
    readRequestMembers (opt "redirect_uri" .str o ++ l) obj uri = readRequestMembers l { obj with redirectUri := o } uri := by
  cases o with
  | none => cases obj; simp only at h; subst h; rfl
  | some a => simp [opt, readRequestMembers, readStr]

theorem read_state (o : Option String) (l : List (String × Json)) (obj : RequestObject) (uri : String) (h : obj.state = none) :
    readRequestMembers (opt "state" .str o ++ l) obj uri = readRequestMembers l { obj with state := o } uri := by
  cases o with
  | none => cases obj; simp only at h; subst h; rfl
  | some a => simp [opt, readRequestMembers, readStr]

theorem read_scope (o : Option String) (l : List (String × Json)) (obj : RequestObject) (uri : String) (h : obj.scope = none) :
    readRequestMembers (opt "scope" .str o ++ l) obj uri = readRequestMembers l { obj with scope := o } uri := by
  cases o with
  | none => cases obj; simp only at h; subst h; rfl
  | some a => simp [opt, readRequestMembers, readStr]

theorem read_resource (o : Option String) (l : List (String × Json)) (obj : RequestObject) (uri : String) (h : obj.resource = none) :
    readRequestMembers (opt "resource" .str o ++ l) obj uri = readRequestMembers l { obj with resource := o } uri := by
  cases o with
  | none => cases obj; simp only at h; subst h; rfl
  | some a => simp [opt, readRequestMembers, readStr]

theorem read_walletIssuer (o : Option String) (l : List (String × Json)) (obj : RequestObject) (uri : String) (h : obj.walletIssuer = none) :
    readRequestMembers (opt "wallet_issuer" .str o ++ l) obj uri = readRequestMembers l { obj with walletIssuer := o } uri := by
  cases o with
  | none => cases obj; simp only at h; subst h; rfl
  | some a => simp [opt, readRequestMembers, readStr]

theorem read_userHint (o : Option String) (l : List (String × Json)) (obj : RequestObject) (uri : String) (h : obj.userHint = none) :
    readRequestMembers (opt "user_hint" .str o ++ l) obj uri = readRequestMembers l { obj with userHint := o } uri := by
  cases o with
  | none => cases obj; simp only at h; subst h; rfl
  | some a => simp [opt, readRequestMembers, readStr]

theorem read_issuerState (o : Option String) (l : List (String × Json)) (obj : RequestObject) (uri : String) (h : obj.issuerState = none) :
    readRequestMembers (opt "issuer_state" .str o ++ l) obj uri = readRequestMembers l { obj with issuerState := o } uri := by
  cases o with
  | none => cases obj; simp only at h; subst h; rfl
  | some a => simp [opt, readRequestMembers, readStr]

theorem read_details (o : Option (List AuthorizationDetail)) (hs : ∀ l, o = some l → ∀ d ∈ l, d.Sound) (l : List (String × Json)) (obj : RequestObject) (uri : String)
    (h : obj.authorizationDetails = none) :
    readRequestMembers (opt "authorization_details" (writeVec writeDetail) o ++ l) obj uri = readRequestMembers l { obj with authorizationDetails := o } uri := by
  cases o with
  | none => cases obj; simp only at h; subst h; rfl
  | some a => simp [opt, readRequestMembers, readVec_written fun d hd => readDetail_write (hs a rfl d hd)]

theorem responseType_name (t : ResponseType) : ResponseType.ofName t.name = some t := by cases t <;> decide

theorem read_written (o : RequestObject) (hs : ∀ l, o.authorizationDetails = some l → ∀ d ∈ l, d.Sound) (x : String) :
    readRequestMembers (writeObject o) { clientId := x } "" = some (.object o) := by
  have e1 : ∀ l, readRequestMembers ((if o.credentialIssuer = "" then [] else [("credential_issuer", .str o.credentialIssuer)]) ++ l) { clientId := x } "" =
      readRequestMembers l { clientId := x, credentialIssuer := o.credentialIssuer } "" := by
    intro l
    split
    · rename_i h; rw [h]; rfl
    · simp [readRequestMembers, readStr]
  have e2 : ∀ l obj, readRequestMembers ([("response_type", .str o.responseType.name), ("client_id", .str o.clientId)] ++ l) obj "" =
      readRequestMembers l { obj with responseType := o.responseType, clientId := o.clientId } "" := by
    intro l obj; simp [readRequestMembers, readStr, readUnit, responseType_name]
  have e3 : ∀ l obj, readRequestMembers ([("code_challenge", .str o.codeChallenge), ("code_challenge_method", .str "S256")] ++ l) obj "" =
      readRequestMembers l { obj with codeChallenge := o.codeChallenge } "" := by
    intro l obj; simp [readRequestMembers, readStr, readUnit, readMethod]
  have e4 : ∀ l obj, readRequestMembers ([("subject_id", .str o.subjectId)] ++ l) obj "" = readRequestMembers l { obj with subjectId := o.subjectId } "" := by
    intro l obj; simp [readRequestMembers, readStr]
  have e5 := read_issuerState o.issuerState []
  simp only [List.append_nil] at e5
  simp only [writeObject, List.append_assoc]
  rw [e1, e2, read_redirectUri _ _ _ _ rfl, read_state _ _ _ _ rfl, e3, read_details _ hs _ _ _ rfl, read_scope _ _ _ _ rfl, read_resource _ _ _ _ rfl, e4,
    read_walletIssuer _ _ _ _ rfl, read_userHint _ _ _ _ rfl, e5 _ _ rfl]
  rfl

end Verif.Wire
