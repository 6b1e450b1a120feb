import Verif.Props.Protector
import Verif.Props.ErrorRender

/-! # C69: the resource protector says why it refuses -/

namespace Goidc.Props
open Spec ResourceProtector

variable {cfg : ProtectorCfg} {lib : Lib} {r r' : Req} {t : List Event}

/-- The response for a verdict. -/
def verdictResp (cfg : ProtectorCfg) (lib : Lib) : Option (OAuthErrorType × GoStr) → HttpResp
  | none => ⟨500, [], []⟩
  | some (code, desc) => ⟨code.statusCode, [(b!"WWW-Authenticate",
      OAuthError.header lib.isPrint ⟨code, desc, errorURI cfg.errorURIBuilder code⟩ cfg.realm)], []⟩

theorem withURI_plain (code : OAuthErrorType) (desc : GoStr) :
    withURI cfg ⟨code, desc, []⟩ = ⟨code, desc, errorURI cfg.errorURIBuilder code⟩ := by
  unfold withURI errorURI
  rw [if_pos rfl]
  cases cfg.errorURIBuilder <;> rfl

/-- The run refuses for the reason `v`. -/
def RefusedFor (cfg : ProtectorCfg) (lib : Lib) (r : Req) (t : List Event) (o : Outcome (Bool × Req)) (calls : List Event)
    (v : Option (OAuthErrorType × GoStr)) : Prop :=
  o = .ok (false, r) ∧ lookups t = calls ∧ WroteOne t (verdictResp cfg lib v)

theorem refusedFor_cons {e : Event} {o calls v} (h : RefusedFor cfg lib r t o calls v)
    (he : ∀ x, e.q ≠ .write x) (hl : e.q.isLog = false) : RefusedFor cfg lib r (e :: t) o (e :: calls) v := by
  obtain ⟨ho, hc, hw⟩ := h
  refine ⟨ho, ?_, wroteOne_cons hw he⟩
  have : e.q.isWrite = false := by
    cases hq : e.q <;> first | rfl | exact absurd hq (he _)
  simp [lookups, hl, this, ← hc]

theorem refusedFor_log {l : LogLine} {v : Option (OAuthErrorType × GoStr)} {resp o} (hr : resp = verdictResp cfg lib v)
    (h : Runs ((ask (.log l)).bind fun _ => (ask (.write resp)).bind fun _ => .ret (false, r)) t o) :
    RefusedFor cfg lib r t o [] v := by
  subst hr
  replace h := runs_bind_ask.1 h
  obtain ⟨_, t1, rfl, h⟩ := h
  replace h := runs_bind_ask.1 h
  obtain ⟨_, t2, rfl, h⟩ := h
  obtain ⟨rfl, rfl⟩ := h
  exact ⟨rfl, by simp [lookups, Query.isLog, Query.isWrite], wroteOne_cons wroteOne_single (by simp)⟩

theorem bearer_verdict (code : OAuthErrorType) (desc : GoStr) :
    (⟨OAuthError.statusCode ⟨code, desc, []⟩,
      [(b!"WWW-Authenticate", (withURI cfg ⟨code, desc, []⟩).header lib.isPrint cfg.realm)], []⟩ : HttpResp) =
    verdictResp cfg lib (some (code, desc)) := by
  rw [withURI_plain]; rfl

theorem validate_verdict (h : Runs (validate cfg lib r) t (.ok (false, r'))) :
    ∃ v, Verdict cfg.acceptance r (lookups t) v ∧ WroteOne t (verdictResp cfg lib v) := by
  suffices ∀ {o}, Runs (validate cfg lib r) t o → o = .ok (false, r') →
      ∃ calls v, Verdict cfg.acceptance r calls v ∧ RefusedFor cfg lib r t o calls v by
    obtain ⟨calls, v, hv, _, rfl, hw⟩ := this h rfl
    exact ⟨v, hv, hw⟩
  clear h
  intro o h ho
  unfold validate at h
  dsimp only at h
  split at h
  · rename_i hemp
    refine ⟨_, _, .noToken fun tok hb => ?_, refusedFor_log (bearer_verdict _ _) h⟩
    obtain ⟨h1, h2⟩ := find_iff.2 hb
    exact h2 (h1.symm.trans hemp)
  · rename_i hne
    have hb : BearerToken cfg.acceptance r (findTokenFromRequest cfg r) := find_iff.1 ⟨rfl, hne⟩
    replace h := runs_bind_ask.1 h
    obtain ⟨res, t1, rfl, h⟩ := h
    have key : ∀ {l v t1 resp}, resp = verdictResp cfg lib v →
        Runs ((ask (.log l)).bind fun _ => (ask (.write resp)).bind fun _ => .ret (false, r)) t1 o →
        RefusedFor cfg lib r (⟨.findOAuthTokenByAccessToken (findTokenFromRequest cfg r), res⟩ :: t1) o
          [⟨.findOAuthTokenByAccessToken (findTokenFromRequest cfg r), res⟩] v := fun hr h =>
      refusedFor_cons (refusedFor_log hr h) (by simp) rfl
    split at h
    · exact ⟨_, _, .unknown hb rfl, key (bearer_verdict _ _) h⟩
    · exact ⟨_, _, .lookupBroke hb (by simp [Event.answer, Answer.ofPair]) (by simp [Event.answer, Answer.ofPair]),
        key rfl h⟩
    · rename_i e hnf _
      refine ⟨_, _, .lookupBroke hb ?_ (by simp [Event.answer, Answer.ofPair]), key rfl h⟩
      simp only [Event.answer, Answer.ofPair, ne_eq, Answer.err.injEq]
      rintro rfl
      exact hnf rfl
    · exact ⟨_, _, .lookupBroke hb (by simp [Event.answer, Answer.ofPair]) (by simp [Event.answer, Answer.ofPair]),
        key rfl h⟩
    · rename_i atk
      unfold validateToken at h
      replace h := runs_bind_ask.1 h
      obtain ⟨now, t2, rfl, h⟩ := h
      split at h
      · rename_i hexp
        replace h := runs_bind_ask.1 h
        obtain ⟨now2, t3, rfl, h⟩ := h
        exact ⟨_, _, .expired hb hexp, refusedFor_cons (refusedFor_cons (refusedFor_cons
          (refusedFor_log (bearer_verdict _ _) h) (by simp) rfl) (by simp) rfl) (by simp) rfl⟩
      · rename_i hlive
        unfold validateInfo at h
        replace h := runs_bind_ask.1 h
        obtain ⟨ians, t3, rfl, h⟩ := h
        have key : ∀ {l v t3 resp}, resp = verdictResp cfg lib v →
            Runs ((ask (.log l)).bind fun _ => (ask (.write resp)).bind fun _ => .ret (false, r)) t3 o →
            RefusedFor cfg lib r (⟨.findOAuthTokenByAccessToken (findTokenFromRequest cfg r), (some atk, none)⟩ ::
              ⟨.now, now⟩ :: ⟨.findActiveAuthInfoById atk.authId, ians⟩ :: t3) o
              [⟨.findOAuthTokenByAccessToken (findTokenFromRequest cfg r), (some atk, none)⟩,
              ⟨.now, now⟩, ⟨.findActiveAuthInfoById atk.authId, ians⟩] v := fun hr h =>
          refusedFor_cons (refusedFor_cons (refusedFor_cons (refusedFor_log hr h) (by simp) rfl) (by simp) rfl)
            (by simp) rfl
        split at h
        · exact ⟨_, _, .inactive hb hlive rfl, key (bearer_verdict _ _) h⟩
        · exact ⟨_, _, .infoBroke hb hlive rfl (by simp), key rfl h⟩
        · rename_i e hnf _
          refine ⟨_, _, .infoBroke hb hlive rfl ?_, key rfl h⟩
          rintro rfl
          exact hnf rfl
        · rename_i info
          cases info with
          | none => rw [h.2] at ho; cases ho
          | some i => rw [h.2] at ho; cases ho

/-- C69: a refused request gets exactly one answer, without a body, that tells why: a request without
a usable bearer token is answered 400 `invalid_request`; a token the application does not know, that
has expired or whose authorization is gone is answered 401 `invalid_token`; when the application
fails, the answer is a bare 500.  `Verdict` lists these reasons with the calls that establish them. -/
theorem C69_reason (h : Runs (validate cfg lib r) t (.ok (false, r'))) :
    ∃ v resp, Verdict cfg.acceptance r (lookups t) v ∧ WroteOne t resp ∧ resp.body = [] ∧
      (v = none → resp.status = 500 ∧ resp.headers = []) ∧
      (∀ desc, v = some (.invalidRequest, desc) → resp.status = 400) ∧
      (∀ desc, v = some (.invalidToken, desc) → resp.status = 401) ∧
      (∀ code desc, v = some (code, desc) → ∃ hdr, resp.headers = [(b!"WWW-Authenticate", hdr)] ∧
        (Printable lib.isPrint cfg.realm → Printable lib.isPrint (errorURI cfg.errorURIBuilder code) →
          Challenge hdr b!"Bearer"
            (challengeParams cfg.realm code.string desc (errorURI cfg.errorURIBuilder code)))) := by
  obtain ⟨v, hv, hw⟩ := validate_verdict h
  refine ⟨v, _, hv, hw, ?_, ?_, ?_, ?_, ?_⟩
  · cases v <;> rfl
  · rintro rfl; exact ⟨rfl, rfl⟩
  · rintro d rfl; rfl
  · rintro d rfl; rfl
  · rintro code desc rfl
    refine ⟨_, rfl, fun h1 h2 => C55_header _ _ _ h1 ?_ h2⟩
    have key : ∀ {calls v}, Verdict cfg.acceptance r calls v → ∀ code desc, v = some (code, desc) →
        desc = [] ∨ desc = b!"your access_token is expired" := by
      intro calls v hv code desc he
      cases hv <;> cases he <;> first | exact .inl rfl | exact .inr rfl
    rcases key hv code desc rfl with rfl | rfl
    · exact ⟨[], rfl, by simp⟩
    · refine ⟨(b!"your access_token is expired").map (·.toNat), show b!"your access_token is expired" = _ by
        decide +kernel, ?_⟩
      have : ∀ cp ∈ (b!"your access_token is expired").map (·.toNat), 32 ≤ cp ∧ cp < 127 := by decide
      intro cp hcp
      refine ⟨?_, .inl (this cp hcp)⟩
      have := this cp hcp
      unfold IsScalar
      omega

/-- C69: and every listed reason does refuse: whenever the application's answers are as described, the
request is refused. -/
theorem C69_every_reason {calls : List Event} {v : Option (OAuthErrorType × GoStr)}
    (h : Verdict cfg.acceptance r calls v) :
    ∃ t, lookups t = calls ∧ Runs (validate cfg lib r) t (.ok (false, r)) := by
  have fin : ∀ (l : LogLine) (resp : HttpResp), ∃ t, lookups t = [] ∧
      Runs ((ask (.log l)).bind fun _ => (ask (.write resp)).bind fun _ => .ret (false, r)) t (.ok (false, r)) :=
    fun l resp => ⟨[⟨.log l, ()⟩, ⟨.write resp, ()⟩], by simp [lookups, Query.isLog, Query.isWrite],
      runs_bind_ask.2 ⟨(), _, rfl, runs_bind_ask.2 ⟨(), _, rfl, rfl, rfl⟩⟩⟩
  have step : ∀ (q : Query) (a : q.Resp) (k : q.Resp → Prog (Bool × Req)) (c : List Event) o,
      q.isLog = false → q.isWrite = false →
      (∃ t, lookups t = c ∧ Runs (k a) t o) → ∃ t, lookups t = ⟨q, a⟩ :: c ∧ Runs ((ask q).bind k) t o := by
    rintro q a k c o h1 h2 ⟨t, rfl, hr⟩
    exact ⟨⟨q, a⟩ :: t, by simp [lookups, h1, h2], runs_bind_ask.2 ⟨a, t, rfl, hr⟩⟩
  unfold validate
  dsimp only
  cases h with
  | noToken hn =>
    have : findTokenFromRequest cfg r = [] := by
      by_cases he : findTokenFromRequest cfg r = []
      · exact he
      · exact absurd (find_iff.1 ⟨rfl, he⟩) (hn _)
    rw [if_pos this]
    exact fin _ _
  | @unknown tok a hb ha =>
    obtain ⟨hf, hne⟩ := find_iff.2 hb
    rw [hf, if_neg hne]
    refine step _ a _ _ _ rfl rfl ?_
    obtain ⟨tk, e⟩ := a
    cases e with
    | none => cases tk <;> simp [Event.answer, Answer.ofPair] at ha
    | some e =>
      cases e <;> simp [Event.answer, Answer.ofPair] at ha
      exact fin _ _
  | @lookupBroke tok a hb ha ha' =>
    obtain ⟨hf, hne⟩ := find_iff.2 hb
    rw [hf, if_neg hne]
    refine step _ a _ _ _ rfl rfl ?_
    obtain ⟨tk, e⟩ := a
    cases e with
    | none =>
      cases tk with
      | none => exact fin _ _
      | some tk => simp [Event.answer, Answer.ofPair] at ha'
    | some e => cases e <;> first | exact fin _ _ | simp [Event.answer, Answer.ofPair] at ha
  | @expired tok tk now now' hb hx =>
    obtain ⟨hf, hne⟩ := find_iff.2 hb
    rw [hf, if_neg hne]
    refine step (.findOAuthTokenByAccessToken tok) (some tk, none) _ _ _ rfl rfl ?_
    refine step _ now _ _ _ rfl rfl ?_
    rw [if_pos hx]
    exact step _ now' _ _ _ rfl rfl (fin _ _)
  | @inactive tok tk now a hb hx ha =>
    obtain ⟨hf, hne⟩ := find_iff.2 hb
    rw [hf, if_neg hne]
    refine step (.findOAuthTokenByAccessToken tok) (some tk, none) _ _ _ rfl rfl ?_
    refine step _ now _ _ _ rfl rfl ?_
    rw [if_neg hx]
    refine step (.findActiveAuthInfoById tk.authId) a _ _ _ rfl rfl ?_
    obtain ⟨tk', e⟩ := a
    cases e with
    | none => cases tk' <;> simp [Event.answer, Answer.ofPair] at ha
    | some e =>
      cases e <;> simp [Event.answer, Answer.ofPair] at ha
      exact fin _ _
  | @infoBroke tok tk now a e hb hx ha he =>
    obtain ⟨hf, hne⟩ := find_iff.2 hb
    rw [hf, if_neg hne]
    refine step (.findOAuthTokenByAccessToken tok) (some tk, none) _ _ _ rfl rfl ?_
    refine step _ now _ _ _ rfl rfl ?_
    rw [if_neg hx]
    refine step (.findActiveAuthInfoById tk.authId) a _ _ _ rfl rfl ?_
    obtain ⟨tk', e'⟩ := a
    cases e' with
    | none => cases tk' <;> simp [Event.answer, Answer.ofPair] at ha
    | some e' =>
      simp only [Event.answer, Answer.ofPair, Answer.err.injEq] at ha
      subst ha
      cases e' <;> first | exact fin _ _ | exact absurd rfl he

/-- C69: the reasons are exclusive: the calls made determine the verdict. -/
theorem C69_unambiguous {m : AcceptanceMethod} {calls : List Event} {v v' : Option (OAuthErrorType × GoStr)}
    (h : Verdict m r calls v) (h' : Verdict m r calls v') : v = v' := by
  generalize hc : calls = calls' at h'
  cases h <;> cases h' <;> first
    | rfl
    | (simp only [List.cons.injEq, reduceCtorEq, List.nil_eq, and_false, false_and, Event.mk.injEq] at hc; done)
    | (simp only [List.cons.injEq, Event.mk.injEq, Query.findOAuthTokenByAccessToken.injEq, and_true] at hc
       obtain ⟨rfl, hc⟩ := hc
       cases hc
       contradiction)
    | (simp only [List.cons.injEq, Event.mk.injEq, Query.findOAuthTokenByAccessToken.injEq, and_true] at hc
       obtain ⟨⟨rfl, hc1⟩, ⟨_, hc2⟩, _, hc3⟩ := hc
       cases hc1
       cases hc2
       cases hc3
       simp_all)

/-- A request without token, one with a token the application does not know, one with an expired token,
and one whose lookup breaks. -/
example : ({} : Sample.World).status (validate sampleProtector Sample.lib (Sample.post [])) = some 400 ∧
    ({ foundToken := (none, some .failed) } : Sample.World).status
      (validate sampleProtector Sample.lib sampleBearer) = some 401 ∧
    ({ now := 950 + 3601 } : Sample.World).status
      (validate sampleProtector Sample.lib sampleBearer) = some 401 ∧
    ({ foundToken := (none, some .unsupported) } : Sample.World).status
      (validate sampleProtector Sample.lib sampleBearer) = some 500 := by
  decide +kernel

example : Verdict sampleProtector.acceptance sampleBearer
    [⟨.findOAuthTokenByAccessToken b!"at", (none, some .failed)⟩] (some (.invalidToken, [])) :=
  .unknown sample_bearer rfl

end Goidc.Props
