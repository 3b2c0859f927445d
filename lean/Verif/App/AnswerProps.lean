import Verif.Interop.PresentProps
import Verif.App.ShareProps
import Verif.App.CollectProps
/-!
# Requests of the verifier of this repository in the example wallet (C170)
-/
namespace Verif.App
open Holder (Credential HEnv HWorld Req Resp PStatus Event Call Entry Issuance Presentation HVal Inv HProg)
open Interop (VNet Net)

variable {a : Around} {s S : App} {t : Nat}

/-! ### Specification -/

/-- What a user does to answer a request: opening it, agreeing, and presenting. -/
def agreeCmds (t1 t2 : Nat) (url : String) : List (Nat × Cmd) := [(t1, .request url), (t2, .authorize)]

/-- The wallet can look for what is asked for without a panic: no filter meets a value it is not made for. -/
def Searchable (a : Around) (k : Dif.Constraints) (s : App) : Prop :=
  ∀ fields, k.fields = some fields → ∀ id c, (id, Slot.credential c) ∈ s.files.store → ∀ j, a.toJson c.vc = some j → ∀ f ∈ fields, ¬ f.Crashes a.dif j

/-- The verifier accepts what the user presents at `s`. -/
def Accepted (a : Around) (s : App) (t : Nat) : Prop :=
  ∃ en r, (serve a s t .present).2.world.log = s.world.log ++ [en] ∧ en.result = .ok (.presented r)

/-! ### Helpers -/

theorem satisfiedLoop_defined {x : Dif.Ext} {j : Json} {fields : List Dif.Field} (h : ∀ f ∈ fields, ¬ f.Crashes x j) :
    ∃ b, Dif.satisfiedLoop x j fields = .ok b := by
  induction fields with
  | nil => exact ⟨_, rfl⟩
  | cons f fs ih =>
    unfold Dif.satisfiedLoop
    cases hm : f.matchedOrFalse x j with
    | error e => exact absurd ((Dif.matchedOrFalse_panic x f j).1 ⟨e, hm⟩) (h f (.head _))
    | ok b =>
      simp only
      split
      · exact ⟨_, rfl⟩
      · exact ih fun f hf => h f (.tail _ hf)

theorem choose_some {k : Dif.Constraints} {l : List Credential}
    (h : ∀ fields, k.fields = some fields → ∀ c ∈ l, ∀ j, a.toJson c.vc = some j → ∀ f ∈ fields, ¬ f.Crashes a.dif j) : ∃ r, choose a k l = some r := by
  induction l with
  | nil => exact ⟨_, rfl⟩
  | cons c l ih =>
    obtain ⟨r, hr⟩ := ih fun fs hfs c hc => h fs hfs c (.tail _ hc)
    unfold choose
    rw [hr]
    cases hs : k.satisfied a.dif (a.toJson c.vc) with
    | ok b => cases b <;> exact ⟨_, rfl⟩
    | error e =>
      cases e with
      | panic m =>
        exfalso
        unfold Dif.Constraints.satisfied at hs
        split at hs
        · cases hs
        · rename_i fields hf
          cases hj : a.toJson c.vc with
          | none => rw [hj] at hs; cases hs
          | some j =>
            rw [hj] at hs
            obtain ⟨b, hb⟩ := satisfiedLoop_defined (x := a.dif) (j := j) (fields := fields) (h fields hf c (.head _) j hj)
            rw [show Dif.satisfiedLoop a.dif j fields = _ from hs] at hb
            cases hb
      | _ => exact ⟨_, rfl⟩

/-- Whether a credential is found. -/
def fits (a : Around) (k : Dif.Constraints) (c : Credential) : Bool :=
  match k.satisfied a.dif (a.toJson c.vc) with
  | .ok b => b
  | .error _ => false

theorem fits_iff (k : Dif.Constraints) (c : Credential) : fits a k c = true ↔ Has a k c := by
  rw [← has_iff]
  unfold fits
  cases k.satisfied a.dif (a.toJson c.vc) <;> simp

theorem choose_filter {k : Dif.Constraints} {l r : List Credential} (h : choose a k l = some r) : r = l.filter (fits a k) := by
  induction l generalizing r with
  | nil => cases h; rfl
  | cons c l ih =>
    unfold choose at h
    rw [List.filter_cons]
    unfold fits
    split at h
    · cases h
    · rename_i e _ he
      rw [he]; exact ih h
    · rename_i b hb
      rw [hb]
      cases b with
      | true =>
        obtain ⟨m, hm, rfl⟩ := Option.map_eq_some_iff.mp h
        rw [ih hm]; rfl
      | false => exact ih h

theorem readAll_map {m : Dict Slot} {l : List Credential} (h : readAll m = some l) : m.map (·.2) = l.map Slot.credential := by
  induction m generalizing l with
  | nil => cases h; rfl
  | cons x m ih =>
    obtain ⟨k, v⟩ := x
    cases v with
    | junk => cases h
    | credential c =>
      obtain ⟨l', hl', rfl⟩ := Option.map_eq_some_iff.mp (show (readAll m).map (c :: ·) = some l from h)
      simp [ih hl']

/-- The wallet's surroundings in the application, while its files are `f`, as a net around the verifier. -/
def joinedV (a : Around) (f : Files) (n : VNet) (v1 : World Verifier.VState) (skip : Nat) : HEnv where
  rng := a.env.rng
  fault := a.env.fault
  oracle := ({ n with rest := (connected a f).oracle } : VNet).oracle v1 skip

variable {n : VNet} {v1 : World Verifier.VState} {skip : Nat} {f : Files}

/-- An endpoint the application calls to answer a request. -/
def Presenting : Req → Prop
  | .request _ => True
  | .authorizePresentation _ => True
  | .present _ => True
  | _ => False

theorem lib_joinedV (ho : a.env.oracle = n.oracle v1 skip) (h : Sound a S) (hfiles : S.files = f) {r : Req} (hr : Used r) (hp : Presenting r) (t : Nat) :
    (lib a S t r).2.world = (Holder.step (joinedV a f n v1 skip) S.world ⟨a.provider, t, r⟩).2 ∧
    Holder.step (joinedV a f n v1 skip) S.world ⟨a.provider, t, r⟩ = Holder.step (connected a S.files) S.world ⟨a.provider, t, r⟩ := by
  have hm := makes (t := t) h hr
  have hrun : (Holder.serve a.provider r).run (joinedV a f n v1 skip) { S.world with now := S.world.now + t, recent := [] } =
      (Holder.serve a.provider r).run (connected a S.files) { S.world with now := S.world.now + t, recent := [] } :=
    run_agree (e := connected a S.files) (e' := joinedV a f n v1 skip) rfl rfl _ _ fun ev hev log recent => by
      have hmk := hm ev hev
      rw [hfiles]
      cases r with
      | request u =>
        rcases hmk with ⟨u, hu⟩ | ⟨u, hu⟩ <;> rw [hu]
        · show _ = a.env.oracle log recent _; rw [ho]; rfl
        · rfl
      | authorizePresentation k => cases hmk
      | present k =>
        obtain ⟨u, q, hu⟩ := hmk
        rw [hu]
        show _ = a.env.oracle log recent _; rw [ho]; rfl
      | _ => cases hp
  have hstep : Holder.step (joinedV a f n v1 skip) S.world ⟨a.provider, t, r⟩ = Holder.step (connected a S.files) S.world ⟨a.provider, t, r⟩ := by
    simp only [Holder.step, hrun]
  exact ⟨by rw [hstep]; rfl, hstep⟩

theorem lib_joinedV_ok (ho : a.env.oracle = n.oracle v1 skip) (h : Sound a S) (hfiles : S.files = f) {r : Req} (hr : Used r) (hp : Presenting r) {resp : Resp}
    (hok : (Holder.step (joinedV a f n v1 skip) S.world ⟨a.provider, t, r⟩).1 = .ok resp) : (lib a S t r).1 = .ok resp := by
  rw [(lib_joinedV ho h hfiles hr hp t).2] at hok
  simp only [lib, hok]

/-- Nothing answers a request but presenting. -/
theorem lib_quiet {tok : String} (h : Sound a S) {r : Req} (hr : Used r) (hp : ∀ k, r ≠ .present k) :
    ∃ en, (lib a S t r).2.world.log = S.world.log ++ [en] ∧ Interop.NotAnswered tok [en] := by
  obtain ⟨x, hx, _⟩ := lib_log a S t r
  refine ⟨_, hx, ?_⟩
  intro en hen ev hev uri rr hc
  rw [List.mem_singleton] at hen
  subst hen
  have := makes (t := t) h hr ev hev
  exfalso
  cases r with
  | present k => exact hp k rfl
  | save q => obtain ⟨u, hu⟩ := this; rw [hc] at hu; cases hu
  | offer q => rcases this with ⟨u, hu⟩ | ⟨u, hu⟩ <;> rw [hc] at hu <;> cases hu
  | token q => obtain ⟨u, hu⟩ := this; rw [hc] at hu; cases hu
  | credentials q => rcases this with ⟨u, hu⟩ | ⟨u, hu⟩ <;> rw [hc] at hu <;> cases hu
  | request q => rcases this with ⟨u, hu⟩ | ⟨u, hu⟩ <;> rw [hc] at hu <;> cases hu
  | _ => exact this

theorem asked_rest {req : Verifier.CreateRequestRequest} {tok : String} {W : Holder.Provider} {url : String} (A : Interop.Asked n req tok v1 W url)
    (g : List Entry → List Event → (c : Call) → Option c.Reply) : Interop.Asked { n with rest := g } req tok v1 W url :=
  ⟨A.fresh, A.noSlash, A.works, A.made, A.alone, ⟨A.agrees.signed, A.agrees.presented, A.agrees.reads⟩⟩

theorem present_accepted {k : String} (hk : s.presentation.id = k) {t : Nat} :
    Accepted a s t ↔ ∃ r, (Holder.step (connected a s.files) s.world ⟨a.provider, t, .present k⟩).1 = .ok (.presented r) := by
  have hlog : (serve a s t .present).2.world.log = (lib a s t (.present k)).2.world.log := by
    show (present a s t).2.world.log = _
    unfold present andThen
    rw [hk]
    split
    · rw [reset_log]
    · rfl
    · rfl
  unfold Accepted
  rw [hlog]
  have hl : (lib a s t (.present k)).2.world.log = s.world.log ++ [⟨a.provider, s.world.now + t, .present k,
      (Holder.step (connected a s.files) s.world ⟨a.provider, t, .present k⟩).1, made a s t (.present k)⟩] := Holder.step_log _ _ _
  rw [hl]
  constructor
  · rintro ⟨en, r, h1, h2⟩
    have := List.append_cancel_left h1
    simp only [List.cons.injEq, and_true] at this
    exact ⟨r, by rw [← this] at h2; exact h2⟩
  · rintro ⟨r, h⟩
    exact ⟨_, r, rfl, h⟩

/-! ### C170 -/

/-- **C170** The user of the example wallet opens a request that a verifier of this repository made, agrees and presents, with any past of the application and
at any times. They see, of what is in the store, exactly the credentials that have what the first input descriptor asks for, in the store's order. What they
then present is accepted exactly if the request asks for a constant somewhere and the first of these credentials is one that every input descriptor asks for.
Whatever else the verifier serves in between, as long as nobody else answers the request. -/
theorem C170_accepted_iff {req : Verifier.CreateRequestRequest} {tok : String} {url : String} {a : Around} (A : Interop.Asked n req tok v1 a.provider url)
    (hfr : a.env.Fresh) (hf : ∀ m, a.env.fault m = .ok)
    {now : Int} {file : Dict Slot} {past : List (Nat × Cmd)} {s : App} (hs : s = after a (opened now file) past)
    (ho : a.env.oracle = n.oracle v1 s.world.log.length) (hread : AllReadable s)
    {d : Dif.InputDescriptor} {ds : List Dif.InputDescriptor} (hd : req.inputDescriptors = d :: ds) (hsearch : Searchable a d.constraints s)
    (htr : ∀ id c, (id, Slot.credential c) ∈ s.files.store → Interop.Trusts n c)
    {t1 t2 t3 : Nat} {s2 : App} (hs2 : s2 = after a s (agreeCmds t1 t2 url))
    {i : Nat} {v : World Verifier.VState} (hv : (i, v) = n.after v1 (Net.made s.world.log.length s2.world.log [])) :
    ∃ (held : List Credential) (has : Credential → Bool) (creds : List Credential), s.files.store.map (·.2) = held.map Slot.credential ∧ (∀ c, has c = true ↔ Has a d.constraints c) ∧ creds = held.filter has ∧
      s2.sub = .presentation ∧ s2.presentation.status = .authorized ∧ s2.presentation.credentials = creds ∧
      (Accepted a s2 t3 ↔ Interop.AsksConst req.inputDescriptors ∧
        ∃ c rest, creds = c :: rest ∧ ∀ d' ∈ req.inputDescriptors, Interop.Fits (n.provider i) (n.arrival i v).now d' c) ∧
      (Accepted a s2 t3 → (serve a s2 t3 .present).2.sub = .credential) := by
  have hsound : Sound a s := by rw [hs]; exact sound_after hfr (sound_opened a now file) past
  clear hs
  obtain ⟨l, hl⟩ := readAll_some hread
  obtain ⟨creds, hcr⟩ : ∃ r, choose a d.constraints l = some r := choose_some fun fs hfs c hc j hj f hff => by
    obtain ⟨id, hid⟩ := (mem_readAll hl c).1 hc
    exact hsearch fs hfs id c hid j hj f hff
  have hfind : s.files.find a (some d.constraints) = some creds := by
    show (readAll s.files.store).bind _ = _
    rw [hl]; exact hcr
  refine ⟨l, fits a d.constraints, creds, readAll_map hl, fits_iff d.constraints, choose_filter hcr, ?_⟩
  let n' : VNet := { n with rest := (connected a s.files).oracle }
  let e : HEnv := joinedV a s.files n v1 s.world.log.length
  obtain ⟨k, w1, h1, hrest⟩ := Interop.accepted_iff (n := n') (e := e) (hw := s.world) (creds := creds) (asked_rest A _) hf hfr
    (inv_env (e := a.env) (e' := e) rfl rfl hsound) rfl (by
      intro d' ds' hd' recent hrec
      rw [hd] at hd'
      cases hd'
      show (s.files.after a recent).find a (some d.constraints) = _
      rw [after_saves, savedIn_nil (fun ev hev c hc => by obtain ⟨u, hu⟩ := hrec ev hev; rw [hc] at hu; cases hu)]
      exact hfind) (by
      intro c hc
      obtain ⟨⟨id, hid⟩, _⟩ := (mem_find hfind c).1 hc
      exact htr id c hid) (s1 := ⟨a.provider, t1, .request url⟩) rfl rfl
  -- opening the request
  have o1 := lib_joinedV_ok (t := t1) ho hsound rfl (r := .request url) trivial trivial (congrArg Prod.fst h1)
  have w1' := (lib_joinedV ho hsound rfl (r := .request url) trivial trivial t1).1
  rw [show (Holder.step (joinedV a s.files n v1 s.world.log.length) s.world ⟨a.provider, t1, .request url⟩).2 = w1 from congrArg Prod.snd h1] at w1'
  have f1 := lib_files (t := t1) hsound (r := .request url) trivial (by simp)
  have so1 := sound_lib hfr hsound t1 (.request url)
  obtain ⟨en1, l1, q1⟩ := lib_quiet (tok := tok) (t := t1) hsound (r := .request url) trivial (by simp)
  have hserve1 : (serve a s t1 (.request url)).2 = { (lib a s t1 (.request url)).2 with presentation := ⟨k, .requested, creds⟩, sub := .presentation } := by
    show (request a s t1 url).2 = _
    unfold request
    simp only [andThen, o1, finish_state]
  generalize hS1 : (serve a s t1 (.request url)).2 = S1 at hserve1
  have hS1w : S1.world = w1 := by rw [hserve1]; exact w1'
  have hS1f : S1.files = s.files := by rw [hserve1]; exact f1
  have hS1s : Sound a S1 := by rw [hserve1]; exact so1
  have hS1l : S1.world.log = s.world.log ++ [en1] := by rw [hserve1]; exact l1
  have hS1p : S1.presentation = ⟨k, .requested, creds⟩ := by rw [hserve1]
  have hS1b : S1.sub = .presentation := by rw [hserve1]
  clear hserve1
  -- agreeing
  obtain ⟨w2, h2, hrest⟩ := hrest [] ⟨a.provider, t2, .authorizePresentation k⟩ (by simp) rfl
  have h2 : Holder.step e S1.world ⟨a.provider, t2, .authorizePresentation k⟩ = (.ok (.status .authorized), w2) := by rw [hS1w]; exact h2
  have o2 := lib_joinedV_ok (t := t2) ho hS1s hS1f (r := .authorizePresentation k) trivial trivial (congrArg Prod.fst h2)
  have w2' := (lib_joinedV ho hS1s hS1f (r := .authorizePresentation k) trivial trivial t2).1
  rw [show (Holder.step (joinedV a s.files n v1 s.world.log.length) S1.world ⟨a.provider, t2, .authorizePresentation k⟩).2 = w2 from congrArg Prod.snd h2] at w2'
  have f2 := lib_files (t := t2) hS1s (r := .authorizePresentation k) trivial (by simp)
  have so2 := sound_lib hfr hS1s t2 (.authorizePresentation k)
  obtain ⟨en2, l2, q2⟩ := lib_quiet (tok := tok) (t := t2) hS1s (r := .authorizePresentation k) trivial (by simp)
  have hserve2 : s2 = { (lib a S1 t2 (.authorizePresentation k)).2 with presentation := ⟨k, .authorized, creds⟩ } := by
    rw [hs2]
    show (serve a (serve a s t1 (.request url)).2 t2 .authorize).2 = _
    rw [hS1]
    show (authorize a S1 t2).2 = _
    unfold authorize
    rw [show S1.presentation.id = k by rw [hS1p]]
    simp only [andThen, o2, finish_state]
    rw [show (lib a S1 t2 (.authorizePresentation k)).2.presentation = S1.presentation from rfl, hS1p]
  have hw2 : s2.world = w2 := by rw [hserve2]; exact w2'
  have hf2 : s2.files = s.files := by rw [hserve2]; exact f2.trans hS1f
  have hso2 : Sound a s2 := by rw [hserve2]; exact so2
  have hl2 : s2.world.log = s.world.log ++ [en1, en2] := by rw [hserve2]; simp only; rw [l2, hS1l]; simp
  have hp2 : s2.presentation = ⟨k, .authorized, creds⟩ := by rw [hserve2]
  have hb2 : s2.sub = .presentation := by rw [hserve2]; exact hS1b
  clear hserve2
  refine ⟨hb2, by rw [hp2], by rw [hp2], ?_, ?_⟩
  · -- presenting
    rw [present_accepted (k := k) (by rw [hp2])]
    have hlast := hrest [] ⟨a.provider, t3, .present k⟩ (by simp) rfl rfl s2.world hw2 (by
      rw [hl2, List.drop_left]
      intro en hen
      rcases List.mem_cons.1 hen with rfl | hen
      · exact q1 _ (.head _)
      · rw [List.mem_singleton] at hen; subst hen; exact q2 _ (.head _)) (i, v) hv
    have hjv := (lib_joinedV ho hso2 hf2 (r := .present k) trivial trivial t3).2
    rw [← hjv]
    exact hlast
  · intro hacc
    obtain ⟨r, hr⟩ := (present_accepted (k := k) (by rw [hp2])).1 hacc
    show (present a s2 t3).2.sub = _
    unfold present
    rw [show s2.presentation.id = k by rw [hp2]]
    have hlib : (lib a s2 t3 (.present k)).1 = .ok (.presented r) := by simp only [lib, hr]
    have hfil := lib_files (t := t3) hso2 (r := .present k) trivial (by simp)
    simp only [andThen, hlib]
    unfold reset
    rw [show (lib a s2 t3 (.present k)).2.files.find a none = some l by rw [hfil, hf2]; exact hl]
    simp only [finish_state]

/-- **C170** (the part that holds). A request for one credential, that asks for a constant, can be answered by a user whose wallet has a credential as asked for,
if none of those it has has expired: what they present is accepted, and they are back at the list of their credentials. The wallet and the verifier look at
credentials in the same way.

What is missing: requests for several credentials (C115) and those that ask for no constant (C72); and see `C170_violated_expired_in_the_way`. -/
theorem C170_one_credential_partial {req : Verifier.CreateRequestRequest} {tok : String} {url : String} {a : Around} (A : Interop.Asked n req tok v1 a.provider url)
    (hfr : a.env.Fresh) (hf : ∀ m, a.env.fault m = .ok)
    {now : Int} {file : Dict Slot} {past : List (Nat × Cmd)} {s : App} (hs : s = after a (opened now file) past)
    (ho : a.env.oracle = n.oracle v1 s.world.log.length) (hread : AllReadable s)
    {d : Dif.InputDescriptor} (hd : req.inputDescriptors = [d]) (hsearch : Searchable a d.constraints s) (hconst : Interop.AsksConst [d])
    (hform : ∀ f, d.format = some f → "jwt_vc_json" ∈ Dict.keys f)
    (htr : ∀ id c, (id, Slot.credential c) ∈ s.files.store → Interop.Trusts n c)
    (halike : ∀ i, (n.provider i).ext = a.dif ∧ (n.provider i).vcJson = a.toJson)
    {id : String} {c : Credential} (hc : (id, Slot.credential c) ∈ s.files.store) (hhas : Has a d.constraints c)
    {t1 t2 t3 : Nat} {s2 : App} (hs2 : s2 = after a s (agreeCmds t1 t2 url))
    {i : Nat} {v : World Verifier.VState} (hv : (i, v) = n.after v1 (Net.made s.world.log.length s2.world.log []))
    (hvalid : ∀ id c, (id, Slot.credential c) ∈ s.files.store → Has a d.constraints c → ∀ u, c.vc.validUntil = some u → (n.arrival i v).now ≤ u) :
    Accepted a s2 t3 ∧ (serve a s2 t3 .present).2.sub = .credential := by
  obtain ⟨held, has, creds, h1, h2, rfl, _, _, _, hiff, hlist⟩ := C170_accepted_iff (t3 := t3) A hfr hf hs ho hread hd hsearch htr hs2 hv
  have hacc : Accepted a s2 t3 := by
    refine hiff.2 ⟨by rw [hd]; exact hconst, ?_⟩
    have held_iff : ∀ c, c ∈ held ↔ ∃ id, (id, Slot.credential c) ∈ s.files.store := by
      intro c
      have : Slot.credential c ∈ s.files.store.map (·.2) ↔ Slot.credential c ∈ held.map Slot.credential := by rw [h1]
      simp only [List.mem_map, Slot.credential.injEq, exists_eq_right, Prod.exists] at this
      exact this.symm
    cases hcr : held.filter has with
    | nil => exact absurd (List.mem_filter.2 ⟨(held_iff c).2 ⟨id, hc⟩, (h2 c).2 hhas⟩) (by rw [hcr]; simp)
    | cons x rest =>
      refine ⟨x, rest, rfl, fun d' hd' => ?_⟩
      rw [hd, List.mem_singleton] at hd'
      subst hd'
      obtain ⟨hx, hxh⟩ := List.mem_filter.1 (show x ∈ held.filter has by rw [hcr]; exact .head _)
      obtain ⟨ix, hx⟩ := (held_iff x).1 hx
      have hxh := (h2 x).1 hxh
      refine ⟨hform, ?_, hvalid ix x hx hxh⟩
      intro fields hfields
      rw [(halike i).1, (halike i).2]
      exact hxh fields hfields
  exact ⟨hacc, hlist hacc⟩

/-- **C170** An expired credential is in the way of all others: if the first credential in the store has what is asked for and has expired, what the user
presents is refused, whatever else is in the store. -/
theorem C170_violated_expired_in_the_way {req : Verifier.CreateRequestRequest} {tok : String} {url : String} {a : Around} (A : Interop.Asked n req tok v1 a.provider url)
    (hfr : a.env.Fresh) (hf : ∀ m, a.env.fault m = .ok)
    {now : Int} {file : Dict Slot} {past : List (Nat × Cmd)} {s : App} (hs : s = after a (opened now file) past)
    (ho : a.env.oracle = n.oracle v1 s.world.log.length) (hread : AllReadable s)
    {d : Dif.InputDescriptor} {ds : List Dif.InputDescriptor} (hd : req.inputDescriptors = d :: ds) (hsearch : Searchable a d.constraints s)
    (htr : ∀ id c, (id, Slot.credential c) ∈ s.files.store → Interop.Trusts n c)
    {id : String} {c : Credential} {others : Dict Slot} (hc : s.files.store = (id, Slot.credential c) :: others) (hhas : Has a d.constraints c)
    {t1 t2 t3 : Nat} {s2 : App} (hs2 : s2 = after a s (agreeCmds t1 t2 url))
    {i : Nat} {v : World Verifier.VState} (hv : (i, v) = n.after v1 (Net.made s.world.log.length s2.world.log []))
    {u : Int} (hu : c.vc.validUntil = some u) (hexpired : u < (n.arrival i v).now) : ¬ Accepted a s2 t3 := by
  obtain ⟨held, has, creds, h1, h2, rfl, _, _, _, hiff, _⟩ := C170_accepted_iff (t3 := t3) A hfr hf hs ho hread hd hsearch htr hs2 hv
  intro hacc
  obtain ⟨_, x, rest, hx, hfit⟩ := hiff.1 hacc
  rw [hc] at h1
  cases held with
  | nil => cases h1
  | cons y held =>
    simp only [List.map_cons, List.cons.injEq, Slot.credential.injEq] at h1
    obtain ⟨rfl, _⟩ := h1
    rw [List.filter_cons, if_pos ((h2 c).2 hhas)] at hx
    cases hx
    have := (hfit d (by rw [hd]; exact .head _)).2.2 u hu
    omega

end Verif.App
