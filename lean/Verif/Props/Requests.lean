import Verif.Lemmas.Requests
import Verif.Props.Handlers

/-! # Property C85: what reading a profile asks of its handler -/

namespace Lcms.Props

open Lcms.Spec

/-- **C85** Whatever the handler, the profile (new or not) and the contents: reading a header asks for at most one
pass over a header and 100 directory lines — read 128 bytes, find out the size and come back to where it was, read
4 bytes, then 12 bytes per line — and for nothing else; it never writes.  A success has made all these calls, as many
for lines as the handler gave as the number of tags; any other ending has made a beginning of them. -/
theorem C85_requests {σ : Type} (t : Target) (h : Handler σ) (env : Handlers) (p : Profile (σ × List Req)) (s : σ)
    (ctx : CState) (hp : p.io = some (s, [])) :
    let r := Profile.readHeaderThr t (logged h) env ⟨p, ctx⟩
    ∃ s' log here n, r.state.prof.io = some (s', log) ∧ n ≤ 100 ∧ log <+: headerRequests here n ∧
      (∀ hd s1 q s2, ask h 128 s = .ok hd s1 → h.tell s1 = .ok q s2 → here = q) ∧
      (∀ st, r = .ok () st → log = headerRequests here n ∧ ∃ cnt, CountAsked h s here cnt ∧ n = fileValue t cnt) := by
  intro r
  have hr : r = Profile.readHeaderIo t (logged h) env ⟨p, ctx⟩ := by
    simp only [r, Profile.readHeaderThr, hp]
  obtain ⟨here, hh⟩ := here_exists h s
  have hl := PLog.readHeaderIo t h env s here hh ⟨p, ctx⟩ (s, []) hp rfl
  rw [← hr] at hl
  cases ho : r with
  | ok a st =>
    rw [ho] at hl
    obtain ⟨x, e1, n, hn, e2, e3⟩ := hl
    exact ⟨x.1, x.2, here, n, e1, hn, by rw [e2]; exact List.prefix_rfl, hh, fun _ _ => ⟨e2, e3⟩⟩
  | err e st =>
    rw [ho] at hl
    obtain ⟨x, e1, n, hn, e2⟩ := hl
    exact ⟨x.1, x.2, here, n, e1, hn, e2, hh, fun _ h => by cases h⟩
  | panic st =>
    rw [ho] at hl
    obtain ⟨x, e1, n, hn, e2⟩ := hl
    exact ⟨x.1, x.2, here, n, e1, hn, e2, hh, fun _ h => by cases h⟩

/-- **C85**, in numbers: at most 106 calls, at most 1332 bytes read, nothing written. -/
theorem C85_bounds {σ : Type} (t : Target) (h : Handler σ) (env : Handlers) (p : Profile (σ × List Req)) (s : σ)
    (ctx : CState) (hp : p.io = some (s, [])) :
    ∃ s' log, (Profile.readHeaderThr t (logged h) env ⟨p, ctx⟩).state.prof.io = some (s', log) ∧
      log.length ≤ 106 ∧ (log.map Req.bytesIn).sum ≤ 1332 ∧ ∀ b, Req.write b ∉ log := by
  obtain ⟨s', log, here, n, h1, hn, h2, -, -⟩ := C85_requests t h env p s ctx hp
  obtain ⟨rest, hrest⟩ := h2
  have hlen : (headerRequests here n).length = 6 + n := by simp [headerRequests]; omega
  have hsum : ((headerRequests here n).map Req.bytesIn).sum = 132 + 12 * n := by
    simp [headerRequests, Req.bytesIn]; omega
  rw [← hrest, List.length_append] at hlen
  rw [← hrest, List.map_append, List.sum_append] at hsum
  refine ⟨s', log, h1, by omega, by omega, fun b hb => ?_⟩
  have : Req.write b ∈ headerRequests here n := by rw [← hrest]; exact List.mem_append_left _ hb
  simp [headerRequests] at this

/-- **C85**: keeping the log does not change what is read. -/
theorem C85_log_is_transparent {σ : Type} (t : Target) (h : Handler σ) (env : Handlers) (now : NaiveDateTime) (s : σ)
    (ctx : CState) :
    SameReading (Profile.readHeaderThr t (logged h) env (fresh now (s, []) ctx))
      (Profile.readHeaderThr t h env (fresh now s ctx)) :=
  sameReading_of_rel (logged_header t h env (fresh now (s, []) ctx).prof (fresh now s ctx).prof (s, []) s ctx rfl rfl
    rfl rfl)

/-- Reading the sample file through a pipe that says it is at 1000. -/
example : (match Profile.readHeaderThr pc (logged (pipe 1000)) quiet (fresh noon (goodFile, []) ctx0) with
    | .ok _ st => st.prof.io.map Prod.snd
    | _ => none) = some (headerRequests 1000 3) := by decide +kernel

/-- The sample file cut short in the second directory line. -/
example : (match Profile.readHeaderThr pc (logged (pipe 1000)) quiet (fresh noon (goodFile.take 150, []) ctx0) with
    | .err .unexpectedEof st => st.prof.io.map Prod.snd
    | _ => none) = some (headerRequests 1000 2) := by decide +kernel

end Lcms.Props
