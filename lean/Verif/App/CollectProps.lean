import Verif.App.CollectLemmas
/-!
# Offers of the issuer of this repository in the example wallet (C169)
-/
namespace Verif.App
open Holder (Credential HEnv HWorld Req Resp PStatus Event Call Entry Issuance Presentation HVal Inv HProg)
open Interop (Net)

variable {a : Around} {s S : App} {t : Nat}

/-! ### Specification -/

/-- What a user does to collect an offer: opening it, accepting it, entering the PIN if there is one, and asking for the credentials. -/
def collectCmds (t1 t2 t3 t4 : Nat) (encoded : String) (txCode : Option String) : List (Nat × Cmd) :=
  [(t1, .offer encoded), (t2, .accept)] ++ (match txCode with | some p => [(t3, .pin p)] | none => []) ++ [(t4, .credentials)]

/-- Everything in the store can be read as a credential. -/
def AllReadable (s : App) : Prop := ∀ x ∈ s.files.store, ∃ c, x.2 = Slot.credential c

/-! ### Helpers -/

theorem readAll_some {m : Dict Slot} (h : ∀ x ∈ m, ∃ c, x.2 = Slot.credential c) : ∃ l, readAll m = some l := by
  induction m with
  | nil => exact ⟨[], rfl⟩
  | cons x m ih =>
    obtain ⟨k, v⟩ := x
    obtain ⟨c, hc⟩ := h _ (.head _)
    have hc : v = .credential c := hc
    subst hc
    obtain ⟨l, hl⟩ := ih fun x hx => h x (.tail _ hx)
    exact ⟨c :: l, by simp [readAll, hl]⟩

theorem does_log (h : Does a s S) : ∃ new, S.world.log = s.world.log ++ new := by
  induction h with
  | refl => exact ⟨[], by simp⟩
  | lib _ t r _ ih =>
    obtain ⟨new, h⟩ := ih
    obtain ⟨x, hx, _⟩ := lib_log a _ t r
    exact ⟨new ++ [_], by rw [hx, h, List.append_assoc]⟩
  | edit _ hw _ ih => rw [hw]; exact ih

/-- Asking for the credentials, once the token is there. -/
def fetchAndSave (a : Around) (k : String) (s : App) : Out × App :=
  andThen (lib a s 0 (.credentials ⟨k, none, none⟩)) fun _ s => andThen (lib a s 0 (.save k)) fun _ s => reset a s

theorem fetch_does (k : String) (s : App) : Does a s (fetchAndSave a k s).2 :=
  andThen_does .refl trivial fun _ _ h => andThen_does h trivial fun _ _ h => reset_does h

theorem save_does (k : String) (s : App) : Does a s (andThen (lib a s 0 (.save k)) fun _ s => reset a s).2 :=
  andThen_does .refl trivial fun _ _ h => reset_does h

theorem token_at {n : Net} {w1 : World Issuer.State} {skip : Nat} {f : Files} (hfr : a.env.Fresh) (ho : a.env.oracle = n.oracle w1 skip)
    {k : String} {w : HWorld} (h : At a f k w S) {r : Resp} (hT : (Holder.step (joined a f n w1 skip) w ⟨a.provider, t, .token k⟩).1 = .ok r) :
    ∃ S', At a f k (Holder.step (joined a f n w1 skip) w ⟨a.provider, t, .token k⟩).2 S' ∧ serve a S t .credentials = fetchAndSave a k S' := by
  have a1 := lib_at (t := t) hfr ho h (r := .token k) trivial (by simp)
  have o1 := (lib_joined ho h.sound h.files (r := .token k) trivial t).2 r (by rw [h.world, hT])
  refine ⟨_, a1, ?_⟩
  show credentials a S t = _
  unfold credentials fetchAndSave
  rw [h.id]
  conv => lhs; unfold andThen
  simp only [o1]
  rw [a1.id]
  unfold andThen
  split
  · rename_i hx
    rw [show (lib a (lib a S t (.token k)).2 0 (.credentials ⟨k, none, none⟩)).2.issuance.id = k from a1.id]
  · rfl
  · rfl

theorem fetch_at {n : Net} {w1 : World Issuer.State} {skip : Nat} {f : Files} (hfr : a.env.Fresh) (ho : a.env.oracle = n.oracle w1 skip)
    {k : String} {w : HWorld} (h : At a f k w S) {r : Resp}
    (hC : (Holder.step (joined a f n w1 skip) w ⟨a.provider, (0 : Nat), .credentials ⟨k, none, none⟩⟩).1 = .ok r) :
    ∃ S', At a f k (Holder.step (joined a f n w1 skip) w ⟨a.provider, (0 : Nat), .credentials ⟨k, none, none⟩⟩).2 S' ∧
      fetchAndSave a k S = andThen (lib a S' 0 (.save k)) fun _ s => reset a s := by
  have a1 := lib_at (t := 0) hfr ho h (r := .credentials ⟨k, none, none⟩) trivial (by simp)
  have o1 := (lib_joined ho h.sound h.files (r := .credentials ⟨k, none, none⟩) trivial 0).2 r (by rw [h.world, hC])
  refine ⟨_, a1, ?_⟩
  unfold fetchAndSave
  conv => lhs; unfold andThen
  simp only [o1]
  rfl

theorem step_result {e : HEnv} {w : HWorld} {st : Holder.HStep} {en : Entry} (h : (Holder.step e w st).2.log = w.log ++ [en]) :
    (Holder.step e w st).1 = en.result ∧ ((Holder.serve st.provider st.req).run e (Holder.before w st)).2.recent = en.events := by
  rw [Holder.step_log] at h
  have h := List.append_cancel_left h
  simp only [List.cons.injEq, and_true] at h
  rw [← h]
  exact ⟨rfl, rfl⟩

/-! ### Property -/

/-- **C169** (the part that holds). The user of the example wallet opens an offer with a pre-authorized code, made by the issuer of this repository in any
state it can be in, accepts it, enters the PIN if there is one, and asks for the credentials, at any times within five minutes of the offer, with any past of
the application. If the offer gives its subject exactly one credential, that credential is in the application's store afterwards, in memory and in the file:
made by the offering issuer, about the holder of the wallet's key, with the claims the issuer's Subject provider has; and it is in the list of credentials, if
all that was in the store can be read. Whatever else the issuer serves in between, as long as nobody else uses the code or the token.

Assumed of the surroundings as in C101: no storage faults, both sides can read what the other signs (`Understands`), the issuer and its authorization server
are registered for the wallet's client (`Serves`) and have the data and keys for the credential (`Issues`).

What is missing: offers of two or more credentials, see `C169_violated_two_are_never_collected`. -/
theorem C169_offer_ends_in_store_partial {n : Net} (hfresh : Issuer.Env.Fresh n.env) {w : World Issuer.State} (hreach : Issuer.Reachable n.env w)
    {st : Issuer.Step} {req : Issuer.CreateOfferRequest} (hreq : st.req = .createOffer req) {oresp : Issuer.CreateOfferResponse}
    (h : (Issuer.step n.env w st).1 = .ok (.createOffer oresp)) (hpre : req.requests .preAuthorizedCode) {subj : String}
    (hsub : req.subjectId = some subj) {o : Issuer.CredentialOffer}
    (hdel : Issuer.Delivers req.credentialIssuer (Issuer.step n.env w st).2.store oresp.offerType o)
    {md : Verif.Issuer} (hserves : ∀ j, Interop.Serves (n.provider j) req.credentialIssuer md "wallet")
    (hnd : Dict.Nodup md.configs) (hknown : ∀ cid ∈ o.configIds, ∃ cfg, (cid, cfg) ∈ md.configs) (hfi : ∀ m, n.env.fault m = .ok)
    {cid id : String} {claims : Dict Json} (hcid : cid ∈ o.configIds) (hauth : st.provider.authorize subj cid = some [id])
    (honly : (o.configIds.flatMap fun c => (st.provider.authorize subj c).getD []) = [id])
    (hiss : ∀ j, Interop.Issues (n.provider j) md subj cid id claims)
    {a : Around} (hfr : a.env.Fresh) (hf : ∀ m, a.env.fault m = .ok) (hdisk : ∀ m, a.disk m = true)
    (hu : Interop.Understands n a.provider (Issuer.step n.env w st).2.now ((Issuer.step n.env w st).2.now + 5 * 60 * Issuer.sec + Issuer.sec))
    {now : Int} {file : Dict Slot} {past : List (Nat × Cmd)} {s : App} (hs : s = after a (opened now file) past)
    (ho : a.env.oracle = n.oracle (Issuer.step n.env w st).2 s.world.log.length) {enc : String} (hread : a.readOffer enc = some o)
    {t1 t2 t3 t4 : Nat} {s' : App} (hs' : s' = after a s (collectCmds t1 t2 t3 t4 enc oresp.txCode))
    (hquiet : ∀ calls, calls <+: Net.made s.world.log.length s'.world.log [] →
      Interop.Undisturbed n (Issuer.step n.env w st).2 calls (Interop.Given o (s'.world.log.drop s.world.log.length))) :
    ∃ c, c.issuer = req.credentialIssuer ∧ c.vc.subject = .one { id := some (beforeHash a.provider.kid), claims } ∧
      IsStored c.id (some (.credential c)) s' ∧ (AllReadable s → s'.sub = .credential ∧ c ∈ s'.credential) := by
  have hsound : Sound a s := by rw [hs]; exact sound_after hfr (sound_opened a now file) past
  clear hs
  obtain ⟨a1, a3, hpin⟩ := Interop.offer_ready hfresh hreach hreq h hpre hdel
  have hkn : ∀ cid ∈ o.configIds, ∃ c, md.configs.get? cid = some c := fun cid hc => by
    obtain ⟨cfg, hcfg⟩ := hknown cid hc
    exact ⟨cfg, Dict.get?_of_mem hnd hcfg⟩
  obtain ⟨sv, supported, scopes, s1, _⟩ := (hserves 1).server
  let n' : Net := { n with rest := (connected a s.files).oracle }
  let e : HEnv := joined a s.files n (Issuer.step n.env w st).2 s.world.log.length
  have hoe : e.oracle = n'.oracle (Issuer.step n'.env w st).2 s.world.log.length := rfl
  let k : String := a.env.rng s.world.drawn
  let oreq : Holder.OfferRequest := ⟨"wallet", "normal_user", o⟩
  let hist0 : List Holder.HStep := [⟨a.provider, t1, .offer oreq⟩, ⟨a.provider, t2, .accept ⟨k, none⟩⟩] ++
    (match oresp.txCode with | some p => [⟨a.provider, t3, .pin ⟨k, p⟩⟩] | none => [])
  obtain ⟨hist', hwA, i, new0, b1, b2, b3, b4, b5, b6, b7, b8, b9, b10, b11, b12, b13, b14, b15, b16, b17, b18, b19, _, _⟩ := Interop.begin_runs (n := n')
    (w1 := (Issuer.step n.env w st).2) (e := e) (hw := s.world) hoe hf (oreq := oreq) (md := md) (sv := sv) a3
    (by rw [show oreq.offer.credentialIssuer = _ from a1]; exact (hserves 0).metadata) (by rw [show oreq.offer.credentialIssuer = _ from a1]; exact s1) hkn
    (txCode := oresp.txCode) hpin (rest := []) (hist := hist0) (by
      simp only [hist0]
      cases oresp.txCode <;> rfl)
  have hh' := List.map_eq_nil_iff.1 b2
  subst hh'
  have b3 : Holder.exec e s.world hist0 = hwA := b3
  have b4' : (Holder.exec e s.world hist0).log = s.world.log ++ new0 := by rw [b3]; exact b4
  -- the application follows
  obtain ⟨S, hS, hcmds⟩ : ∃ S, At a s.files k hwA S ∧ after a s (collectCmds t1 t2 t3 t4 enc oresp.txCode) = (serve a S t4 .credentials).2 := by
    obtain ⟨⟨r0, hr0⟩, new1, hl1, hok1⟩ := step_ok_of_log b4' b5
    have A0 := offer_at (t := t1) hfr ho hsound hread (resp := r0) hr0
    obtain ⟨⟨r1, hr1⟩, new2, hl2, hok2⟩ := step_ok_of_log hl1 hok1
    have A1 := accept_at (t := t2) hfr ho A0 (resp := r1) hr1
    cases htx : oresp.txCode with
    | none =>
      refine ⟨_, ?_, rfl⟩
      have : hwA = (Holder.step e (Holder.step e s.world ⟨a.provider, t1, .offer oreq⟩).2 ⟨a.provider, t2, .accept ⟨k, none⟩⟩).2 := by
        rw [← b3]; simp only [hist0, htx]; rfl
      rw [this]; exact A1
    | some p =>
      simp only [htx] at hl2
      obtain ⟨⟨r2, hr2⟩, new3, hl3, hok3⟩ := step_ok_of_log hl2 hok2
      have A2 := pin_at (t := t3) hfr ho A1 (resp := r2) hr2
      refine ⟨_, ?_, rfl⟩
      have : hwA = (Holder.step e (Holder.step e (Holder.step e s.world ⟨a.provider, t1, .offer oreq⟩).2 ⟨a.provider, t2, .accept ⟨k, none⟩⟩).2
          ⟨a.provider, t3, .pin ⟨k, p⟩⟩).2 := by
        rw [← b3]; simp only [hist0, htx]; rfl
      rw [this]; exact A2
  rw [hcmds] at hs'
  clear hcmds
  have hskipA : s.world.log.length ≤ hwA.log.length := by rw [b4]; simp
  rw [show oreq.offer.credentialIssuer = _ from a1] at b7
  have b7 : Net.made s.world.log.length hwA.log [] = _ := b7
  -- the token
  have hlogS : ∃ new, s'.world.log = hwA.log ++ new := by rw [hs', ← hS.world]; exact serve_log ..
  obtain ⟨newS, hnewS⟩ := hlogS
  have hquiet' : ∀ calls, calls <+: Net.made s.world.log.length s'.world.log [] →
      Interop.Undisturbed n' (Issuer.step n'.env w st).2 calls (Interop.Given o (s'.world.log.drop s.world.log.length)) :=
    fun calls hc => ⟨(hquiet calls hc).intact, (hquiet calls hc).intime⟩
  obtain ⟨enT, q, tr, i', sT, tT, l, creds, ⟨r1, d1⟩, d2, d3, _, L, d5, d6, d7, d8, d9⟩ := Interop.token_links (n := n') hfresh hreach hreq h hpre hsub hdel
    (by decide) hserves hnd hknown hfi (by rw [honly]; simp) (e := e) hoe hf hskipA b7 b8 b9 b10 b11 b12 b13 b14 b15 b16 b17 b18
    (fun g p h1 h2 => Interop.Given.code g p h1 h2)
    (fun pre hp => hquiet' pre (hp.trans (by rw [hnewS, ← b7]; exact Net.made_prefix hskipA))) (st2 := ⟨a.provider, t4, .token k⟩) rfl
  generalize hwT : (Holder.step e hwA ⟨a.provider, t4, .token k⟩).2 = wT at *
  obtain ⟨S1, hS1, hserve1⟩ := token_at (t := t4) hfr ho hS (r := r1) ((step_result (hwT ▸ d2)).1.trans d1)
  rw [show joined a s.files n (Issuer.step n.env w st).2 s.world.log.length = e from rfl, hwT] at hS1
  rw [hserve1] at hs'
  clear hserve1 hS hnewS newS
  obtain ⟨newT, hnewT⟩ : ∃ new, s'.world.log = wT.log ++ new := by rw [hs', ← hS1.world]; exact does_log (fetch_does ..)
  -- the credential
  have hskipT : s.world.log.length ≤ wT.log.length := by rw [d2]; simp; omega
  have q2 := hquiet' (Net.made s.world.log.length wT.log []) (by rw [hnewT]; exact Net.made_prefix hskipT)
  have htok : Interop.Given o (s'.world.log.drop s.world.log.length) tr.accessToken :=
    .token enT q tr (by rw [hnewT, d2, b4]; simp) (by rw [d3]; exact .head _)
  obtain ⟨d, hd1, cl, hd2, hd3, hd4⟩ := d9 cid hcid [id] hauth id (.head _)
  obtain ⟨x1, x2, y1, y2, hl, hxy, g1, g2, g3, g4⟩ := Interop.details_split hd1 hd3 (by rw [d8, honly]; simp)
  have hu' : Interop.Understands n' a.provider (Issuer.step n'.env w st).2.now ((Issuer.step n'.env w st).2.now + 5 * 60 * Issuer.sec + Issuer.sec) :=
    ⟨hu.proofs, hu.credentials, hu.times⟩
  obtain ⟨c, i2, s2, t2', enC, ⟨r2, c1⟩, c2, _, _, L2, c3, ⟨c4, c5, _⟩⟩ := L.collect_wanted (n := n') (e := e) hoe hf hfi hu' d6 hskipT
    (fun j => by rw [(hserves j).itself]; exact (hserves j).metadata) hnd hiss hd4 hl d7 hd2 hxy g1 g2 g3 g4
    (st := ⟨a.provider, (0 : Nat), .credentials ⟨k, none, none⟩⟩) rfl (wanted := none) (by simp [Holder.wants])
    (fun d' hd' z hz hne => by
      have : z ∈ l.flatMap (·.identifiers) := List.mem_flatMap.2 ⟨d', hd', hz⟩
      rw [d8, honly, List.mem_singleton] at this
      exact absurd this.symm hne) rfl (q2.intact _ htok) q2.intime
  generalize hwC : (Holder.step e wT ⟨a.provider, (0 : Nat), .credentials ⟨k, none, none⟩⟩).2 = wC at *
  obtain ⟨S2, hS2, hserve2⟩ := fetch_at hfr ho hS1 (r := r2) ((step_result (hwC ▸ c2)).1.trans c1)
  rw [show joined a s.files n (Issuer.step n.env w st).2 s.world.log.length = e from rfl, hwC] at hS2
  rw [hserve2] at hs'
  have hcr : i2.credentials = [c] := by rw [c3, d5, b19]; rfl
  -- saving
  have hrun := Holder.save_runs (e := e) (w := Holder.before wC ⟨a.provider, (0 : Nat), .save k⟩) hf (k := k) (i := i2) L2.stored L2.deferred L2.notification
    (fun log recent c => by
      show (if a.disk _ then some () else none) = some ()
      rw [if_pos (hdisk _)])
  have hstep := Interop.step_of_run (e := e) (hw := wC) (st := ⟨a.provider, (0 : Nat), .save k⟩) hrun
  have hlib := (lib_joined ho hS2.sound hS2.files (r := .save k) trivial 0).2 (.flow k) (by
    rw [hS2.world, show joined a s.files n (Issuer.step n.env w st).2 s.world.log.length = e from rfl, hstep])
  have hworld := (lib_joined ho hS2.sound hS2.files (r := .save k) trivial 0).1
  have hmade : made a S2 0 (.save k) = [⟨.save c, some ()⟩] := by
    obtain ⟨x, hx, _⟩ := lib_log a S2 0 (.save k)
    rw [hworld, hS2.world, show joined a s.files n (Issuer.step n.env w st).2 s.world.log.length = e from rfl, hstep] at hx
    have hx := List.append_cancel_left hx
    simp only [List.cons.injEq, and_true, Holder.Entry.mk.injEq] at hx
    rw [← hx.2.2.2.2, hcr]
    rfl
  have hfiles : (lib a S2 0 (.save k)).2.files = s.files.save a c := by
    show S2.files.after a (made a S2 0 (.save k)) = _
    rw [hmade, hS2.files]; rfl
  have hs' : s' = (reset a (lib a S2 0 (.save k)).2).2 := by
    rw [hs']; simp only [andThen, hlib]
  have hget : (s.files.store.insert c.id (.credential c)).get? c.id = some (.credential c) := by rw [Dict.get?_insert, if_pos rfl]
  refine ⟨c, by rw [c4, (hserves 0).itself], c5, ?_, ?_⟩
  · unfold IsStored
    rw [hs', reset_files, hfiles]
    refine ⟨hget, ?_⟩
    show Dict.get? (if a.disk _ = true then _ else _) _ = _
    rw [if_pos (hdisk _)]; exact hget
  · intro hall
    obtain ⟨m, hm⟩ := readAll_some (m := (lib a S2 0 (.save k)).2.files.store) (by
      rw [hfiles]
      intro x hx
      have hx : x ∈ s.files.store.insert c.id (.credential c) := hx
      rcases Dict.mem_insert hx with rfl | hx
      · exact ⟨c, rfl⟩
      · exact hall x hx)
    have hfind : (lib a S2 0 (.save k)).2.files.find a none = some m := hm
    rw [hs']
    unfold reset
    rw [hfind]
    simp only [finish_state]
    refine ⟨trivial, (mem_readAll hm c).2 ⟨c.id, ?_⟩⟩
    rw [hfiles]
    exact Dict.mem_of_get? hget

/-! ### What the application's history says -/

/-- The history is of endpoints the application uses, and what it says was answered to requests for tokens is what was answered. -/
structure Logged (a : Around) (log : List Entry) : Prop where
  used : ∀ en ∈ log, Used en.req
  tokens : Interop.TokensGenuine a.env.oracle log

theorem logged_lib (h : Logged a s.world.log) (t : Nat) {r : Req} (hr : Used r) : Logged a (lib a s t r).2.world.log := by
  obtain ⟨x, hx, _⟩ := lib_log a s t r
  rw [hx]
  refine ⟨?_, ?_⟩
  · intro en hen
    rcases List.mem_append.1 hen with hen | hen
    · exact h.used en hen
    · rw [List.mem_singleton.1 hen]; exact hr
  · intro pre en post hlog b q tr c hev
    rcases List.eq_nil_or_concat post with rfl | ⟨post', z, rfl⟩
    · have := List.append_inj' hlog rfl
      obtain ⟨rfl, h2⟩ := this
      cases h2
      have hev : made a s t r = b ++ ⟨.token q, some tr⟩ :: c := hev
      obtain ⟨evs, h1, h2⟩ := Holder.run_answers (connected a s.files) (Holder.serve a.provider r) { s.world with now := s.world.now + t, recent := [] }
      have h1 : made a s t r = evs := h1
      have := h2 b ⟨.token q, some tr⟩ c (h1.symm.trans hev)
      exact this.symm
    · rw [List.concat_eq_append, ← List.cons_append, ← List.append_assoc] at hlog
      obtain ⟨h1, _⟩ := List.append_inj' hlog rfl
      exact h.tokens pre en post' h1 b q tr c hev

theorem logged_does (h : Logged a s.world.log) (hd : Does a s S) : Logged a S.world.log := by
  induction hd with
  | refl => exact h
  | lib _ t r hr ih => exact logged_lib ih t hr
  | edit _ hw _ ih => rw [hw]; exact ih

theorem logged_serve (h : Logged a s.world.log) (t : Nat) (c : Cmd) : Logged a (serve a s t c).2.world.log := by
  induction c with
  | delete id =>
    show Logged a (delete a s id).2.world.log
    rw [delete_world]; exact h
  | restart => exact h
  | autosave => exact h
  | crash n c ih => exact ih
  | _ => exact logged_does h (serve_does a s t trivial)

theorem logged_after (h : Logged a s.world.log) (l : List (Nat × Cmd)) : Logged a (after a s l).world.log := by
  induction l generalizing s with
  | nil => exact h
  | cons x l ih => exact ih (logged_serve h x.1 x.2)

theorem logged_opened (a : Around) (now : Int) (file : Dict Slot) : Logged a (opened now file).world.log :=
  ⟨(fun _ h => nomatch h), (fun pre en post h => by cases pre <;> cases h)⟩

/-- **C169**, refuted. If the issuer of this repository, whose credentials need key proofs, authorized the flow at hand for two or more credentials, asking for
the credentials never works in the example wallet: in any history of the application and of the issuer, with whatever else either did, the command shows no
list (it fails or panics) and nothing is stored. The application always asks for all credentials in one call, and its user cannot choose. -/
theorem C169_violated_two_are_never_collected {n : Net} (hfresh : Issuer.Env.Fresh n.env) {w1 : World Issuer.State} (hreach : Issuer.Reachable n.env w1)
    (hp : Interop.WantsProofs n) {a : Around} (hfr : a.env.Fresh) (ho : a.env.oracle = n.oracle w1 0) {now : Int} {file : Dict Slot}
    {past : List (Nat × Cmd)} {s : App} (hs : s = after a (opened now file) past) {t : Nat}
    (htwo : ∀ en ∈ (serve a s t .credentials).2.world.log, en.req = .token s.issuance.id → ∀ q tr, (⟨.token q, some tr⟩ : Event) ∈ en.events →
      ∃ l, tr.authorizationDetails = some l ∧ 2 ≤ (l.flatMap (·.identifiers)).length) :
    (∀ v, (serve a s t .credentials).1 ≠ .view v) ∧ (serve a s t .credentials).2.files = s.files := by
  have hsound : Sound a s := by rw [hs]; exact sound_after hfr (sound_opened a now file) past
  have hlogged : Logged a s.world.log := by rw [hs]; exact logged_after (logged_opened a now file) past
  clear hs
  have hf1 := lib_files (t := t) hsound (r := .token s.issuance.id) trivial (by simp)
  have hs1 := sound_lib hfr hsound t (.token s.issuance.id)
  have hl1 := logged_lib hlogged t (r := .token s.issuance.id) trivial
  generalize hx : lib a s t (.token s.issuance.id) = x at *
  have hid : x.2.issuance.id = s.issuance.id := by rw [← hx]; rfl
  have hserve : serve a s t .credentials = andThen x fun _ s =>
      andThen (lib a s 0 (.credentials ⟨s.issuance.id, none, none⟩)) fun _ s => andThen (lib a s 0 (.save s.issuance.id)) fun _ s => reset a s := by
    rw [← hx]; rfl
  obtain ⟨o1, S1⟩ := x
  cases o1 with
  | failed => rw [hserve]; exact ⟨(fun v h => nomatch h), hf1⟩
  | panicked => rw [hserve]; exact ⟨(fun v h => nomatch h), hf1⟩
  | ok r1 =>
    have hserve : serve a s t .credentials = andThen (lib a S1 0 (.credentials ⟨S1.issuance.id, none, none⟩)) fun _ s =>
      andThen (lib a s 0 (.save s.issuance.id)) fun _ s => reset a s := hserve
    obtain ⟨new, hnew⟩ : ∃ new, (serve a s t .credentials).2.world.log = S1.world.log ++ new := by
      rw [hserve]
      exact does_log (a := a) (andThen_does .refl trivial fun _ _ h => andThen_does h trivial fun _ _ h => reset_does h)
    have hfail := Holder.batch_fails_at (e := connected a S1.files) (w := S1.world) (inv_env (e := a.env) (e' := connected a S1.files) rfl rfl hs1)
      (fun pre mid q x r jwt hgot hq hqp hrp hrt => by
        have hq : a.env.oracle S1.world.log pre (.credential q) = some x := hq
        show a.env.oracle S1.world.log _ (.credential r) = none
        have hg := hl1.tokens
        rw [ho] at hq hg ⊢
        exact Interop.single_use_at hfresh hreach hp hg hgot hq hqp hrp hrt)
      ⟨a.provider, (0 : Nat), .credentials ⟨S1.issuance.id, none, none⟩⟩ rfl (by
        intro sc tr ⟨pre, en, post, hlog, htok, _⟩
        have hmem : en ∈ S1.world.log := by rw [hlog]; simp
        obtain ⟨⟨q, hq⟩, hreq⟩ := htok
        rcases hreq with ⟨hreq, hsc⟩ | ⟨r, hr, _⟩
        · have hreq : en.req = .token s.issuance.id := hreq.trans (congrArg _ hid)
          obtain ⟨l, h1, h2⟩ := htwo en (by rw [hnew]; exact List.mem_append_left _ hmem) hreq q tr hq
          exact ⟨hsc, l, h1, by
            show 2 ≤ (List.filter (fun _ => true) (l.flatMap (·.identifiers))).length
            rw [List.filter_eq_self.2 (by simp)]; exact h2⟩
        · have := hl1.used en hmem
          rw [hr] at this
          cases this)
    have hf2 := lib_files (t := 0) hs1 (r := .credentials ⟨S1.issuance.id, none, none⟩) trivial (by simp)
    obtain ⟨⟨x, hx⟩, _⟩ := hfail
    have hout : ∀ resp, (lib a S1 0 (.credentials ⟨S1.issuance.id, none, none⟩)).1 ≠ .ok resp := by
      intro resp h
      have h := lib_ok h
      have hx : ((Holder.serve a.provider (.credentials ⟨S1.issuance.id, none, none⟩)).run (connected a S1.files)
        { S1.world with now := S1.world.now + (0 : Nat), recent := [] }).1 = .error x := hx
      rw [hx] at h
      cases h
    rw [hserve]
    generalize lib a S1 0 (.credentials ⟨S1.issuance.id, none, none⟩) = y at *
    obtain ⟨o2, S2⟩ := y
    cases o2 with
    | ok r => exact absurd rfl (hout r)
    | failed => exact ⟨(fun v h => nomatch h), hf2.trans hf1⟩
    | panicked => exact ⟨(fun v h => nomatch h), hf2.trans hf1⟩

end Verif.App
