import Verif.Lemmas.TidyExact
import Verif.Lemmas.Peer
namespace S2A.Record
open Spec (View view hsSplit verdict ticketType updateType updateRecords carriesUpdate)

/-- The record is in order if it continues a key update; it carries an update. -/
theorem hear_update_piece {v : View} {r more m : Bytes} (hv : v.sane = true)
    (hm : m.length = 4 + Handler.bodyLen m) (h5 : m.length ≠ 4)
    (ht : m.head? = some updateType) (he : v.rest ++ r ++ more = m) (hr : r ≠ []) :
    carriesUpdate v r = true ∧ (v.hear r).sane = true ∧
      (more ≠ [] → (v.hear r).rest = v.rest ++ r) ∧ (more = [] → (v.hear r).rest = []) := by
  have hne : v.rest ++ r ≠ [] := by
    intro h
    exact hr (List.append_eq_nil_iff.1 h).2
  have hhd : (v.rest ++ r).head? = some updateType := by
    rw [← ht, ← he]
    cases hq : v.rest ++ r with
    | nil => exact absurd hq hne
    | cons b bs => rfl
  cases more with
  | nil =>
    rw [List.append_nil] at he
    have hs : hsSplit (v.rest ++ r) = ([m], []) := by
      have := Handler.hsSplit_cons (s := []) hm
      rw [List.append_nil] at this
      rw [he, this, Handler.hsSplit_of_incomplete (by simp [Handler.Incomplete])]
    refine ⟨?_, ?_, fun h => absurd rfl h, fun _ => ?_⟩
    · simp [carriesUpdate, hs, hr, Spec.mentionsType, ht]
    · simp only [View.hear, hv, if_true, hs]
      rw [verdict, if_neg (by rw [ht]; decide), if_pos ht, if_neg h5, if_pos ⟨rfl, rfl⟩]
      rfl
    · simp [View.hear, hv, hs]
  | cons b bs =>
    have hs : hsSplit (v.rest ++ r) = ([], v.rest ++ r) :=
      Handler.hsSplit_of_incomplete
        (Handler.incomplete_prefix (by rw [he]; exact hm) (by simp))
    refine ⟨?_, ?_, fun _ => ?_, fun h => by cases h⟩
    · simp [carriesUpdate, hs, hr, Spec.mentionsType, hhd]
    · simp only [View.hear, hv, if_true, hs]
      rw [verdict, if_pos (Or.inr (Or.inr hhd))]
      rfl
    · simp [View.hear, hv, hs]

theorem updateRecords_pieces {v : View} {pieces : List Bytes} {m : Bytes} (hv : v.sane = true)
    (hm : m.length = 4 + Handler.bodyLen m) (h5 : m.length ≠ 4)
    (ht : m.head? = some updateType) (he : v.rest ++ pieces.flatten = m)
    (hp : ∀ p ∈ pieces, p ≠ []) :
    updateRecords v pieces = pieces.length ∧ (pieces.foldl View.hear v).sane = true := by
  induction pieces generalizing v with
  | nil => exact ⟨rfl, hv⟩
  | cons p ps ih =>
    rw [List.flatten_cons, ← List.append_assoc] at he
    obtain ⟨h1, h2, h3, h4⟩ := hear_update_piece hv hm h5 ht he (hp p (by simp))
    cases ps with
    | nil => exact ⟨by simp [updateRecords, h1], h2⟩
    | cons q qs =>
      have hne : (q :: qs).flatten ≠ [] := by
        intro h
        rw [List.flatten_cons] at h
        exact hp q (by simp) (List.append_eq_nil_iff.1 h).1
      have := ih (v := v.hear p) h2 (by rw [h3 hne]; exact he) (fun x hx => hp x (by simp [hx]))
      rw [updateRecords, h1, this.1, List.foldl_cons]
      refine ⟨?_, this.2⟩
      simp only [if_true, List.length_cons]
      omega

end S2A.Record
