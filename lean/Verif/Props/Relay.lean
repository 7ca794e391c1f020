import Verif.Props.ProxyExact
/-
The proxy as a relay: in every history of calls the bytes of the peer reach the S2A, and the
bytes of the S2A reach the peer, as one stream, without loss, repetition or reordering (C88).
-/
namespace S2A.Proxy
open Proto Util
open Spec (requests request readRequest IsComplete peerBytes passedIn s2aHears handedOut said
  peerHears s2aSays)
open Demo

set_option maxRecDepth 100000

theorem peerBytes_starts {isClient : Bool} {g b : Bytes} (h : Spec.Starts isClient g b) :
    peerBytes b = g := by
  obtain ⟨⟨k, ms⟩, hm, hk⟩ := h
  unfold peerBytes
  rw [hm]
  cases isClient with
  | true =>
    simp only [if_true] at hk
    obtain ⟨rfl, c, rfl⟩ := hk
    rfl
  | false =>
    simp only [if_neg Bool.false_ne_true] at hk
    obtain ⟨c, rfl, rfl⟩ := hk
    rfl

theorem peerBytes_continues {g b : Bytes} (h : Spec.Continues g b) : peerBytes b = g := by
  obtain ⟨_, ⟨k, ms⟩, hm, hk⟩ := h
  unfold peerBytes
  rw [hm]
  simp only at hk
  subst hk
  rfl

/-- In every history, the peer's bytes that the S2A reads in the requests are exactly those the
user passed to the successful calls of `GetBytesForS2A`, in that order. -/
theorem C88_to_the_S2A (L : Lib) (o : Options) (s : State) (evs : List Event)
    (h : Reach L o s evs) (hl : ∀ g b, (g, b) ∈ requests evs → b.length < 2 ^ 64) :
    s2aHears evs = passedIn evs := by
  have key : ∀ x ∈ requests evs, peerBytes x.2 = x.1 := by
    rcases C42_requests_in_order_partial L o s evs h hl with h0 | ⟨g, b, rest, h1, h2, h3⟩
    · rw [h0]; simp
    · rw [h1]
      rintro ⟨g', b'⟩ hm
      rcases List.mem_cons.1 hm with hm | hm
      · cases hm
        exact peerBytes_starts h2
      · exact peerBytes_continues (h3 _ _ hm)
  unfold s2aHears passedIn
  congr 1
  exact List.map_congr_left key

open Classical in
/-- One call hands out what the S2A said in the response. -/
theorem handedOut_eq_said {L : Lib} {s s' : State} {op : Op} {ev : Event}
    (h : step L s op = .ok (s', ev)) : handedOut ev = said ev := by
  cases op with
  | forS2A e bytes => cases h; rfl
  | isFinished => cases h; rfl
  | createFrameProtector fIn fOut =>
    simp only [Proxy.step, HalfConn.exec_bind_eq_ok] at h
    obtain ⟨⟨s1, p⟩, _, h2⟩ := h
    cases h2
    rfl
  | getContext => simp only [Proxy.step] at h; cases h; rfl
  | forPeer dec bytes =>
    cases h
    show (getBytesForPeer dec s bytes).2.buffer = _
    cases hresp : response dec bytes with
    | none =>
      have hb : ∀ resp, response dec bytes = some resp → ¬ Spec.Good resp := by
        rw [hresp]; nofun
      obtain ⟨c, _, he⟩ := getBytesForPeer_bad (s := s) hb
      rw [he]
      rfl
    | some resp =>
      show _ = if Spec.Good resp ∧ ∀ r, resp.result = some r → IsComplete r
        then some resp.outFrames else none
      by_cases hg : Spec.Good resp
      · by_cases hr : ∀ r, resp.result = some r → IsComplete r
        · rw [if_pos ⟨hg, hr⟩]
          have hne : bytes.getD [] ≠ [] := by
            intro he
            unfold response at hresp
            rw [if_pos (by simp [he])] at hresp
            cases hresp
          have hd : dec (bytes.getD []) = some resp := by
            unfold response at hresp
            rw [if_neg (by simp [hne])] at hresp
            exact hresp
          have := C54_forwarded_verbatim_partial dec s (bytes.getD []) hne resp hd hg hr
          cases bytes with
          | none => exact absurd rfl hne
          | some b =>
            rw [show (some b).getD [] = b from rfl] at this
            rw [this]
        · rw [if_neg (fun x => hr x.2)]
          cases hb : (getBytesForPeer dec s bytes).2.buffer with
          | none => rfl
          | some b =>
            obtain ⟨resp', h1, _, _, _, h5⟩ := C54_nothing_else_forwarded dec s bytes b hb
            have : response dec bytes = some resp' := by
              unfold response
              unfold response at hresp
              split at hresp
              · cases hresp
              · next hne => rw [if_neg hne]; exact h1
            rw [hresp] at this
            cases this
            exact absurd h5 hr
      · rw [if_neg (fun x => hg x.1)]
        have hb : ∀ resp, response dec bytes = some resp → ¬ Spec.Good resp := by
          intro r hr
          rw [hresp] at hr
          cases hr
          exact hg
        obtain ⟨c, _, he⟩ := getBytesForPeer_bad (s := s) hb
        rw [he]
        rfl

/-- In every history, the bytes the user gets for the peer are exactly those the S2A put into
its good responses, in that order. -/
theorem C88_to_the_peer (L : Lib) (o : Options) (s : State) (evs : List Event)
    (h : Reach L o s evs) : peerHears evs = s2aSays evs := by
  unfold peerHears s2aSays
  refine h.induction (P := fun _ evs =>
    (evs.filterMap handedOut).flatten = (evs.filterMap said).flatten) (fun _ _ => rfl) ?_
  intro s evs op s' ev ih hs
  simp only [List.filterMap_append, List.flatten_append, ih, List.filterMap_cons,
    handedOut_eq_said hs]
  cases said ev <;> rfl

/-- Two proxies whose users carry the bytes from one to the other: whatever the S2A of the one
side says for the peer is what the S2A of the other side hears.  If the users have carried only
a part so far, it hears that part. -/
theorem C88_from_S2A_to_S2A (L L' : Lib) (o o' : Options) (s s' : State) (evs evs' : List Event)
    (h : Reach L o s evs) (h' : Reach L' o' s' evs')
    (hl : ∀ g b, (g, b) ∈ requests evs' → b.length < 2 ^ 64)
    (hc : passedIn evs' <+: peerHears evs) :
    s2aHears evs' <+: s2aSays evs ∧
    (passedIn evs' = peerHears evs → s2aHears evs' = s2aSays evs) := by
  rw [C88_to_the_S2A L' o' s' evs' h' hl, ← C88_to_the_peer L o s evs h]
  exact ⟨hc, id⟩

/-- Witness: a client gets two responses for the peer, and a server is passed what it got, in
other pieces. -/
example :
    let c := hist client [.forS2A env none, says frames, .forS2A env (some [5]), says done]
    let v := hist server [.forS2A env (some [1]), says frames, .forS2A env (some [2, 3, 1, 2, 3])]
    Reach Lib.toy client c.1 c.2 ∧ Reach Lib.toy server v.1 v.2 ∧
    peerHears c.2 = [1, 2, 3, 1, 2, 3] ∧ passedIn v.2 = peerHears c.2 ∧
    s2aHears v.2 = peerHears c.2 ∧
    (requests v.2).all (fun x => x.2.length < 2 ^ 64) = true :=
  ⟨reach (by decide +kernel), reach (by decide +kernel), by decide +kernel, by decide +kernel,
    by decide +kernel, by decide +kernel⟩

end S2A.Proxy
