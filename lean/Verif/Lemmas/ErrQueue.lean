import Verif.Model.ErrQueue
import Verif.Spec.ErrQueue
import Verif.Lemmas.TextCrypto
import Verif.Lemmas.Aead
/-
The functions of Model/ErrQueue.lean are those of Model/TextCrypto.lean and Model/Text.lean, where
the text of the error queue is that of the queue they find, followed by what the library has added.
-/
namespace S2A

variable {α β γ : Type}

/-- A result together with the queue it leaves. -/
abbrev withQ (x : Exec α) (q : ErrQueue) : Exec (α × ErrQueue) := x.map (·, q)

theorem withQ_inj {x y : Exec α} {q : ErrQueue} (h : withQ x q = withQ y q) : x = y := by
  cases x <;> cases y <;> first | rfl | (cases h; rfl) | cases h

/-- How a function with a queue and one with a text for it go together.  Either the text makes no
difference; then `N` holds of the queue that is left and of the result.  Or the queue is printed,
and so left empty; then `P` holds of the text and the result. -/
def Follows (N : ErrQueue → α → Prop) (P : String → α → Prop) (xQ : Exec (α × ErrQueue))
    (xT : String → Exec α) : Prop :=
  (∃ q, (∀ t, xQ = withQ (xT t) q) ∧ ∀ a, xQ = .ok (a, q) → N q a) ∨
  ∃ s a, xQ = .ok (a, []) ∧ xT s = .ok a ∧ P s a

namespace Follows

variable {N : ErrQueue → α → Prop} {P : String → α → Prop} {q : ErrQueue}

theorem same {a : α} (h : N q a) : Follows N P (.ok (a, q)) (fun _ => .ok a) :=
  .inl ⟨q, fun _ => rfl, fun _ e => by cases e; exact h⟩

theorem asks {a : α} {xT : String → Exec α} (s : String) (h : xT s = .ok a) (h' : P s a) :
    Follows N P (.ok (a, [])) xT :=
  .inr ⟨s, a, rfl, h, h'⟩

theorem ub {u : UB} : Follows N P (.error u) (fun _ => .error u) :=
  .inl ⟨[], fun _ => rfl, nofun⟩

/-- A step without the library. -/
theorem step {x : Exec γ} {gQ : γ → Exec (α × ErrQueue)} {gT : String → γ → Exec α}
    (h : ∀ a, x = .ok a → Follows N P (gQ a) (fun t => gT t a)) :
    Follows N P (x >>= gQ) (fun t => x >>= gT t) := by
  cases x with
  | error u => exact ub
  | ok a => exact h a rfl

/-- A step with the library, after which there is no other if it has printed the queue. -/
theorem bind {N' : γ → Prop} {P' : String → γ → Prop} {xQ : Exec (γ × ErrQueue)}
    {xT : String → Exec γ} {gQ : γ × ErrQueue → Exec (α × ErrQueue)} {gT : String → γ → Exec α}
    (hx : Follows (fun r a => r = q ∧ N' a) P' xQ xT)
    (h1 : ∀ a, N' a → Follows N P (gQ (a, q)) (fun t => gT t a))
    (h2 : ∀ s a, P' s a → ∃ b, gQ (a, []) = .ok (b, []) ∧ gT s a = .ok b ∧ P s b) :
    Follows N P (xQ >>= gQ) (fun t => xT t >>= gT t) := by
  rcases hx with ⟨r, hr, hn⟩ | ⟨s, a, rfl, hs, hp⟩
  · cases xQ with
    | error u =>
      have : xT = fun _ => .error u := by
        funext t
        have := hr t
        cases hx : xT t with
        | error v => rw [hx] at this; cases this; rfl
        | ok a => rw [hx] at this; cases this
      rw [this]
      exact ub
    | ok y =>
      obtain ⟨a, r'⟩ := y
      have e : ∀ t, xT t = .ok a ∧ r' = r := by
        intro t
        have := hr t
        cases hx : xT t with
        | error v => rw [hx] at this; cases this
        | ok a => rw [hx] at this; cases this; exact ⟨rfl, rfl⟩
      obtain ⟨_, rfl⟩ := e ""
      obtain ⟨rfl, hn'⟩ := hn a rfl
      have : xT = fun _ => .ok a := by funext t; exact (e t).1
      rw [this]
      exact h1 a hn'
  · obtain ⟨b, e1, e2, e3⟩ := h2 s a hp
    exact .inr ⟨s, b, e1, by simp only [hs]; exact e2, e3⟩

theorem imp {N' : ErrQueue → α → Prop} {P' : String → α → Prop} {xQ xT} (h : Follows N P xQ xT)
    (hn : ∀ q a, N q a → N' q a) (hp : ∀ s a, P s a → P' s a) : Follows N' P' xQ xT := by
  rcases h with ⟨q, h1, h2⟩ | ⟨s, a, h1, h2, h3⟩
  · exact .inl ⟨q, h1, fun a e => hn _ _ (h2 a e)⟩
  · exact .inr ⟨s, a, h1, h2, hp _ _ h3⟩

end Follows

/-- A function with a queue does as one without a text; `N` holds of the queue that is left and of
the result. -/
def Mute (N : ErrQueue → α → Prop) (xQ : Exec (α × ErrQueue)) (x : Exec α) : Prop :=
  ∃ r, xQ = withQ x r ∧ ∀ a, x = .ok a → N r a

namespace Mute

variable {N : ErrQueue → α → Prop} {q : ErrQueue}

theorem ok {a : α} (h : N q a) : Mute N (.ok (a, q)) (.ok a) :=
  ⟨q, rfl, fun _ e => by cases e; exact h⟩

theorem ub {u : UB} : Mute N (.error u) (.error u) := ⟨[], rfl, nofun⟩

theorem step {x : Exec γ} {gQ : γ → Exec (α × ErrQueue)} {gT : γ → Exec α}
    (h : ∀ a, x = .ok a → Mute N (gQ a) (gT a)) : Mute N (x >>= gQ) (x >>= gT) := by
  cases x with
  | error u => exact ub
  | ok a => exact h a rfl

theorem bind {N' : ErrQueue → γ → Prop} {xQ : Exec (γ × ErrQueue)} {xT : Exec γ}
    {gQ : γ × ErrQueue → Exec (α × ErrQueue)} {gT : γ → Exec α} (hx : Mute N' xQ xT)
    (h : ∀ a r, N' r a → Mute N (gQ (a, r)) (gT a)) : Mute N (xQ >>= gQ) (xT >>= gT) := by
  obtain ⟨r, rfl, hn⟩ := hx
  cases xT with
  | error u => exact ub
  | ok a => exact h a r (hn a rfl)

end Mute

/-- A function with a queue does as one with a text `t₀` for it.  Either the text makes no
difference; then `N` holds of the queue that is left and of the result.  Or `M` holds of them. -/
def QueueEnds {τ : Type} (t₀ : τ) (N M : ErrQueue → α → Prop) (xQ : Exec (α × ErrQueue))
    (xT : τ → Exec α) : Prop :=
  ∃ r, xQ = withQ (xT t₀) r ∧ ∀ a, xT t₀ = .ok a → (∀ t, xT t = .ok a) ∧ N r a ∨ M r a

theorem Follows.ends {N M : ErrQueue → α → Prop} {P : String → α → Prop} {xQ xT}
    (h : Follows N P xQ xT) (t : String) (hp : ∀ s a, P s a → s = t ∧ M [] a) :
    QueueEnds t N M xQ xT := by
  rcases h with ⟨q, e, hn⟩ | ⟨s, a, rfl, e, h⟩
  · refine ⟨q, e t, fun a ha => .inl ⟨fun t' => ?_, hn a (by rw [e t, ha]; rfl)⟩⟩
    have h1 : xQ = .ok (a, q) := by rw [e t, ha]; rfl
    have h2 := e t'
    rw [h1] at h2
    cases hx : xT t' with
    | error v => rw [hx] at h2; cases h2
    | ok b => rw [hx] at h2; cases h2; rfl
  · obtain ⟨rfl, hm⟩ := hp s a h
    exact ⟨[], by rw [e]; rfl, fun b hb => by rw [e] at hb; cases hb; exact .inr hm⟩

namespace QueueEnds

variable {τ : Type} {t₀ : τ} {N M : ErrQueue → α → Prop} {q : ErrQueue}

theorem ok {a : α} (h : N q a) : QueueEnds t₀ N M (.ok (a, q)) (fun _ => .ok a) :=
  ⟨q, rfl, fun _ e => by cases e; exact .inl ⟨fun _ => rfl, h⟩⟩

theorem ub {u : UB} : QueueEnds t₀ N M (.error u) (fun _ => .error u) := ⟨[], rfl, nofun⟩

theorem mute {xQ : Exec (α × ErrQueue)} {x : Exec α} (h : Mute N xQ x) :
    QueueEnds t₀ N M xQ (fun _ => x) := by
  obtain ⟨r, e, h⟩ := h
  exact ⟨r, e, fun a ha => .inl ⟨fun _ => ha, h a ha⟩⟩

theorem step {x : Exec γ} {gQ : γ → Exec (α × ErrQueue)} {gT : τ → γ → Exec α}
    (h : ∀ a, x = .ok a → QueueEnds t₀ N M (gQ a) (fun t => gT t a)) :
    QueueEnds t₀ N M (x >>= gQ) (fun t => x >>= gT t) := by
  cases x with
  | error u => exact ub
  | ok a => exact h a rfl

theorem bind {σ : Type} (p : τ → σ) {N' M' : ErrQueue → γ → Prop} {xQ : Exec (γ × ErrQueue)}
    {xT : σ → Exec γ} {gQ : γ × ErrQueue → Exec (α × ErrQueue)} {gT : τ → γ → Exec α}
    (hx : QueueEnds (p t₀) N' M' xQ xT)
    (h1 : ∀ a r, N' r a → QueueEnds t₀ N M (gQ (a, r)) (fun t => gT t a))
    (h2 : ∀ a r, M' r a → Mute M (gQ (a, r)) (gT t₀ a)) :
    QueueEnds t₀ N M (xQ >>= gQ) (fun t => xT (p t) >>= gT t) := by
  obtain ⟨r, rfl, hn⟩ := hx
  cases h : xT (p t₀) with
  | error u => exact ⟨[], by simp only [h]; rfl, by simp only [h]; nofun⟩
  | ok a =>
    rcases hn a h with ⟨ht, hn⟩ | hm
    · have : (fun t => xT (p t) >>= gT t) = fun t => gT t a := by
        funext t; rw [ht]; rfl
      rw [this]
      exact h1 a r hn
    · obtain ⟨r', e, h2⟩ := h2 a r hm
      refine ⟨r', ?_, ?_⟩
      · simp only [h]; exact e
      · simp only [h]; exact fun b hb => .inr (h2 b hb)

end QueueEnds

namespace Aead

theorem setAadQ_follows (f : EvpFault) (es q : ErrQueue) (vs : List Iovec) (k : Nat) (c : Ctx) :
    Follows (fun r _ => r = q ∧ True)
      (fun s a => s = String.join (q ++ es) ∧ ∃ p, a = .error (.internal, p ++ s))
      (setAadQ f es q k c vs) (fun t => setAadT f t k c vs) := by
  induction vs generalizing k c with
  | nil => exact .same ⟨rfl, trivial⟩
  | cons v vs ih =>
    unfold setAadQ setAadT
    by_cases h : v.len = 0
    · simp only [if_pos h]; exact ih ..
    simp only [if_neg h]
    cases v with
    | null n => exact .same ⟨rfl, trivial⟩
    | buf d =>
      simp only
      by_cases h1 : intBound ≤ d.length
      · simp only [if_pos h1]; exact .ub
      simp only [if_neg h1]
      by_cases h2 : f.aad k = true
      · simp only [if_pos h2]
        exact .asks (String.join (q ++ es)) rfl ⟨rfl, _, rfl⟩
      simp only [if_neg h2]
      exact ih ..

theorem encLoopQ_follows (L : Lib) (f : EvpFault) (es q : ErrQueue) (vs : List Iovec) (k : Nat)
    (c : Ctx) (out : Bytes) (off rem : Nat) :
    Follows (fun r _ => r = q ∧ True)
      (fun s a => s = String.join (q ++ es) ∧ (∃ p, a.2 = .error (.internal, p ++ s)) ∨
        s = String.join q ∧ rem < totalLen vs ∧ ∃ p, a.2 = .error (.invalidArgument, p ++ s))
      (encLoopQ L f es q k c out off rem vs) (fun t => encLoopT L f t k c out off rem vs) := by
  induction vs generalizing k c out off rem with
  | nil => exact .same ⟨rfl, trivial⟩
  | cons v vs ih =>
    have htl : totalLen (v :: vs) = v.len + totalLen vs := by simp [totalLen]
    unfold encLoopQ encLoopT
    by_cases h : v.len = 0
    · simp only [htl, h, Nat.zero_add]; exact ih ..
    simp only [if_neg h]
    cases v with
    | null n => exact .same ⟨rfl, trivial⟩
    | buf d =>
      simp only
      have hlen : (Iovec.buf d).len = d.length := rfl
      by_cases h0 : rem < d.length
      · simp only [if_pos h0]
        exact .asks (String.join q) rfl (.inr ⟨rfl, by omega, _, rfl⟩)
      simp only [if_neg h0]
      by_cases h1 : intBound ≤ d.length
      · simp only [if_pos h1]; exact .ub
      simp only [if_neg h1]
      by_cases h2 : f.update k = true
      · simp only [if_pos h2]
        exact .asks (String.join (q ++ es)) rfl (.inl ⟨rfl, _, rfl⟩)
      simp only [if_neg h2]
      refine .step fun out' _ => .step fun rem' hr => ?_
      have hr' : rem' = rem - d.length := by
        unfold subSize at hr
        simp only [Ctx.encUpdate, xorKs_length] at hr
        rw [if_pos (by omega)] at hr
        cases hr; rfl
      refine (ih ..).imp (fun _ _ h => h) ?_
      rintro s a (h | ⟨h1, h2, h3⟩)
      · exact .inl h
      · exact .inr ⟨h1, by omega, h3⟩

/-- What a printed queue says about the result of an AEAD operation: a call of the library has
failed, or, for `Encrypt`, the output buffer is too short. -/
def Asked (q es : ErrQueue) (short : Prop) (s : String) (a : Result × String) : Prop :=
  s = String.join (q ++ es) ∧ a.1.status = .internal ∧ (∃ p, a.2 = p ++ s) ∨
  s = String.join q ∧ short ∧ a.1.status = .invalidArgument ∧ ∃ p, a.2 = p ++ s

theorem evpEncryptQ_follows (L : Lib) (f : EvpFault) (es q : ErrQueue) (alg : Alg)
    (key nonce : Bytes) (aad plaintext : List Iovec) (out : Iovec) :
    Follows (fun r _ => r = q ∧ True) (Asked q es (out.len < totalLen plaintext))
      (evpEncryptQ L f es q alg key nonce aad plaintext out)
      (fun t => evpEncryptT L f t alg key nonce aad plaintext out) := by
  unfold evpEncryptQ evpEncryptT
  cases out with
  | null n => exact .ub
  | buf ob =>
    simp only
    by_cases h1 : nonce.length ≠ kNonceSize
    · simp only [if_pos h1]; exact .same ⟨rfl, trivial⟩
    simp only [if_neg h1]
    by_cases h2 : f.init = true
    · simp only [if_pos h2]
      exact .asks (String.join (q ++ es)) rfl (.inl ⟨rfl, rfl, _, rfl⟩)
    simp only [if_neg h2]
    refine .bind (setAadQ_follows ..) ?_ ?_
    · intro x _
      cases x with
      | error e => exact .same ⟨rfl, trivial⟩
      | ok c =>
        simp only
        refine .bind (encLoopQ_follows ..) ?_ ?_
        · rintro ⟨ob', y⟩ _
          cases y with
          | error e => exact .same ⟨rfl, trivial⟩
          | ok z =>
            obtain ⟨c', off, rem⟩ := z
            simp only
            by_cases h3 : f.final = true
            · simp only [if_pos h3]
              exact .asks (String.join (q ++ es)) rfl (.inl ⟨rfl, rfl, _, rfl⟩)
            simp only [if_neg h3]
            by_cases h4 : rem < kTagSize
            · simp only [if_pos h4]; exact .same ⟨rfl, trivial⟩
            simp only [if_neg h4]
            by_cases h5 : f.tag = true
            · simp only [if_pos h5]
              exact .asks (String.join (q ++ es)) rfl (.inl ⟨rfl, rfl, _, rfl⟩)
            simp only [if_neg h5]
            exact .step fun _ _ => .step fun _ _ => .step fun _ _ => .same ⟨rfl, trivial⟩
        · rintro s ⟨ob', y⟩ (⟨e, m, hm⟩ | ⟨e, hl, m, hm⟩)
          · simp only at hm
            subst hm
            exact ⟨_, rfl, rfl, .inl ⟨e, rfl, _, rfl⟩⟩
          · simp only at hm
            subst hm
            exact ⟨_, rfl, rfl, .inr ⟨e, hl, rfl, _, rfl⟩⟩
    · rintro s x ⟨e, m, rfl⟩
      exact ⟨_, rfl, rfl, .inl ⟨e, rfl, _, rfl⟩⟩

theorem decLoopQ_follows (L : Lib) (f : EvpFault) (es q : ErrQueue) (vs : List Iovec) (k : Nat)
    (c : Ctx) (out : Bytes) (off rem total : Nat) (cur : Bytes)
    (ht : total ≤ kTagSize ∨ total ≤ totalLen vs) :
    Follows (fun r (a : _ × _) => r = q ∧ ∀ s, a.2 = .ok s → s.total ≤ kTagSize)
      (fun s a => s = String.join (q ++ es) ∧ ∃ p, a.2 = .error (.internal, p ++ s))
      (decLoopQ L f es q k c out off rem total cur vs)
      (fun t => decLoopT L f t k c out off rem total cur vs) := by
  induction vs generalizing k c out off rem total cur with
  | nil =>
    refine .same ⟨rfl, ?_⟩
    rintro s ⟨⟩
    simp only [totalLen, List.map_nil, List.sum_nil] at ht ⊢
    have : kTagSize = 16 := rfl
    omega
  | cons v vs ih =>
    have htl : totalLen (v :: vs) = v.len + totalLen vs := by simp [totalLen]
    unfold decLoopQ decLoopT
    by_cases h0 : total ≤ kTagSize
    · simp only [if_pos h0]
      refine .same ⟨rfl, ?_⟩
      rintro s ⟨⟩
      exact h0
    simp only [if_neg h0]
    by_cases h : v.len = 0
    · simp only [if_pos h]; exact ih _ _ _ _ _ _ _ (by omega)
    simp only [if_neg h]
    cases v with
    | null n => exact .same ⟨rfl, nofun⟩
    | buf d =>
      simp only
      have hlen : (Iovec.buf d).len = d.length := rfl
      generalize hb : (if d.length > total - kTagSize then total - kTagSize else d.length) = btw
      by_cases h1 : rem < btw
      · simp only [if_pos h1]; exact .same ⟨rfl, nofun⟩
      simp only [if_neg h1]
      by_cases h2 : intBound ≤ btw
      · simp only [if_pos h2]; exact .ub
      simp only [if_neg h2]
      by_cases h3 : f.update k = true
      · simp only [if_pos h3]
        exact .asks (String.join (q ++ es)) rfl ⟨rfl, _, rfl⟩
      simp only [if_neg h3]
      refine .step fun out' _ => .step fun rem' _ => .step fun total' hr => ?_
      refine ih _ _ _ _ _ _ _ ?_
      have hbd : btw ≤ d.length ∧ btw ≤ total - kTagSize ∧
          (btw = d.length ∨ btw = total - kTagSize) := by
        rw [← hb]; split <;> omega
      unfold subSize at hr
      simp only [Ctx.decUpdate, xorKs_length, List.length_take] at hr
      rw [Nat.min_eq_left hbd.1, if_pos (by omega)] at hr
      cases hr
      omega

theorem evpDecryptQ_follows (L : Lib) (f : EvpFault) (es q : ErrQueue) (alg : Alg)
    (key nonce : Bytes) (aad ct : List Iovec) (out : Iovec) :
    Follows (fun r _ => r = q ∧ True) (Asked q es False)
      (evpDecryptQ L f es q alg key nonce aad ct out)
      (fun t => evpDecryptT L f t alg key nonce aad ct out) := by
  unfold evpDecryptQ evpDecryptT
  by_cases h0 : ¬ out.WF
  · simp only [if_pos h0]; exact .ub
  simp only [if_neg h0]
  by_cases h4 : totalLen ct < kTagSize
  · simp only [if_pos h4]; exact .same ⟨rfl, trivial⟩
  simp only [if_neg h4]
  by_cases h1 : nonce.length ≠ kNonceSize
  · simp only [if_pos h1]; exact .same ⟨rfl, trivial⟩
  simp only [if_neg h1]
  by_cases h2 : f.init = true
  · simp only [if_pos h2]
    exact .asks (String.join (q ++ es)) rfl (.inl ⟨rfl, rfl, _, rfl⟩)
  simp only [if_neg h2]
  refine .bind (setAadQ_follows ..) ?_ ?_
  · intro x hx
    cases x with
    | error e => exact .same ⟨rfl, trivial⟩
    | ok c =>
      simp only
      refine .bind (decLoopQ_follows L f es q ct 0 c out.bytes 0 out.bytes.length (totalLen ct) []
        (.inr (Nat.le_refl _))) ?_ ?_
      · rintro ⟨ob', y⟩ hy
        cases y with
        | error e => exact .same ⟨rfl, trivial⟩
        | ok s =>
          simp only
          rw [if_neg (Nat.not_lt.2 (hy s rfl))]
          simp only [if_neg (Nat.not_lt.2 (hy s rfl))]
          refine .step fun _ _ => .step fun tag _ => ?_
          by_cases h3 : tag.length ≠ kTagSize
          · simp only [if_pos h3]; exact .ub
          simp only [if_neg h3]
          by_cases h5 : f.tag = true
          · simp only [if_pos h5]
            exact .asks (String.join (q ++ es)) rfl (.inl ⟨rfl, rfl, _, rfl⟩)
          simp only [if_neg h5]
          by_cases h6 : (f.final || decide (s.ctx.tag L ≠ tag)) = true
          · simp only [if_pos h6]
            exact .asks (String.join (q ++ es)) rfl (.inl ⟨rfl, rfl, _, rfl⟩)
          simp only [if_neg h6]
          exact .step fun _ _ => .same ⟨rfl, trivial⟩
      · rintro s ⟨ob', y⟩ ⟨e, m, hm⟩
        simp only at hm
        subst hm
        exact ⟨_, rfl, rfl, .inl ⟨e, rfl, _, rfl⟩⟩
  · rintro s x ⟨e, m, rfl⟩
    exact ⟨_, rfl, rfl, .inl ⟨e, rfl, _, rfl⟩⟩

theorem boringEncryptQ_follows (L : Lib) (f : EvpFault) (es q : ErrQueue) (alg : Alg)
    (key nonce : Bytes) (aad plaintext : List Iovec) (out : Iovec) :
    Follows (fun r _ => r = q ∧ True) (Asked q es False)
      (boringEncryptQ L f es q alg key nonce aad plaintext out)
      (fun t => boringEncryptT L f t alg key nonce aad plaintext out) := by
  unfold boringEncryptQ boringEncryptT
  cases out with
  | null n => exact .ub
  | buf ob =>
    simp only
    by_cases h1 : nonce.length ≠ kNonceSize
    · simp only [if_pos h1]; exact .same ⟨rfl, trivial⟩
    simp only [if_neg h1]
    by_cases h2 : hasBadNull plaintext = true
    · simp only [if_pos h2]; exact .same ⟨rfl, trivial⟩
    simp only [if_neg h2]
    by_cases h3 : ob.length < kTagSize + totalLen plaintext
    · simp only [if_pos h3]; exact .same ⟨rfl, trivial⟩
    simp only [if_neg h3]
    by_cases h4 : hasBadNull aad = true
    · simp only [if_pos h4]; exact .same ⟨rfl, trivial⟩
    simp only [if_neg h4]
    by_cases h5 : f.oneShot = true
    · simp only [if_pos h5]
      exact .asks (String.join (q ++ es)) rfl (.inl ⟨rfl, rfl, _, rfl⟩)
    simp only [if_neg h5]
    exact .step fun _ _ => .step fun _ _ => .step fun _ _ => .same ⟨rfl, trivial⟩

theorem boringDecryptQ_follows (L : Lib) (f : EvpFault) (es q : ErrQueue) (alg : Alg)
    (key nonce : Bytes) (aad ct : List Iovec) (out : Iovec) :
    Follows (fun r _ => r = q ∧ True) (Asked q es False)
      (boringDecryptQ L f es q alg key nonce aad ct out)
      (fun t => boringDecryptT L f t alg key nonce aad ct out) := by
  unfold boringDecryptQ boringDecryptT
  by_cases h0 : ¬ out.WF
  · simp only [if_pos h0]; exact .ub
  simp only [if_neg h0]
  by_cases h1 : nonce.length ≠ kNonceSize
  · simp only [if_pos h1]; exact .same ⟨rfl, trivial⟩
  simp only [if_neg h1]
  by_cases h2 : hasBadNull ct = true
  · simp only [if_pos h2]; exact .same ⟨rfl, trivial⟩
  simp only [if_neg h2]
  by_cases h3 : totalLen ct < kTagSize
  · simp only [if_pos h3]; exact .same ⟨rfl, trivial⟩
  simp only [if_neg h3]
  by_cases h6 : out.bytes.length < totalLen ct - kTagSize
  · simp only [if_pos h6]; exact .same ⟨rfl, trivial⟩
  simp only [if_neg h6]
  by_cases h4 : hasBadNull aad = true
  · simp only [if_pos h4]; exact .same ⟨rfl, trivial⟩
  simp only [if_neg h4]
  split
  · exact .asks (String.join (q ++ es)) rfl (.inl ⟨rfl, rfl, _, rfl⟩)
  · exact .step fun _ _ => .step fun _ _ => .step fun _ _ => .same ⟨rfl, trivial⟩

theorem encryptQ_follows (L : Lib) (f : EvpFault) (es q : ErrQueue) (c : Crypter) (nonce : Bytes)
    (aad plaintext : List Iovec) (out : Iovec) :
    Follows (fun r _ => r = q ∧ True) (Asked q es (out.len < totalLen plaintext))
      (c.encryptQ L f es q nonce aad plaintext out)
      (fun t => c.encryptT L f t nonce aad plaintext out) := by
  unfold Crypter.encryptQ Crypter.encryptT
  split
  · refine (boringEncryptQ_follows ..).imp (fun _ _ h => h) ?_
    rintro s a (h | ⟨_, h, _⟩)
    · exact .inl h
    · exact h.elim
  · exact evpEncryptQ_follows ..

theorem decryptQ_follows (L : Lib) (f : EvpFault) (es q : ErrQueue) (c : Crypter) (nonce : Bytes)
    (aad ct : List Iovec) (out : Iovec) :
    Follows (fun r _ => r = q ∧ True) (Asked q es False)
      (c.decryptQ L f es q nonce aad ct out) (fun t => c.decryptT L f t nonce aad ct out) := by
  unfold Crypter.decryptQ Crypter.decryptT
  split
  · exact boringDecryptQ_follows ..
  · exact evpDecryptQ_follows ..

end Aead
end S2A
