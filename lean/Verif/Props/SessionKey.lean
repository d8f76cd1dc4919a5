import Verif.Proof.Rekey
import Verif.Proof.Demo
/-!
# C64: nothing but the tags depends on the session key
-/
namespace Ergo
open Spec

/-- C64: the session key, and the function that makes tags with it, show up in tags only.  Take any
execution, another key and another authentication function, and present frames with tags that are
correct there exactly when they were correct before: then every question, every screen and every reply
is the same, except that released frames carry the tag of their own world. -/
theorem C64_key {env env' : Env} (he : SameButMac env env') {nanoS : Bool} {key : Bytes} (key' : Bytes)
    {tr : List Obs} {d : Device} (h : Runs env nanoS key tr d) :
    ∀ es', List.Forall₂ (SameButTag env key env' key') (tr.map (·.event)) es' →
    ∃ tr' d', Runs env' nanoS key' tr' d' ∧ tr'.map (·.event) = es' ∧
      List.Forall₂ (SameObsButTag env key env' key') tr tr' ∧
      d'.asks = d.asks ∧ d'.page env' nanoS = d.page env nanoS ∧
      ∀ e e', SameButTag env key env' key' e e' →
        SameObsButTag env key env' key' (d.observe env nanoS e) (d'.observe env' nanoS e') := by
  have hee := sameButMac_eq he
  generalize env'.hmac = H at hee
  subst hee
  suffices hs : ∀ es', List.Forall₂ (SameButTag env key (env.mac H) key') (tr.map (·.event)) es' →
      ∃ tr', Runs (env.mac H) nanoS key' tr' (d.rekey key') ∧ tr'.map (·.event) = es' ∧
        List.Forall₂ (SameObsButTag env key (env.mac H) key') tr tr' by
    intro es' hes
    obtain ⟨tr', h1, h2, h3⟩ := hs es' hes
    refine ⟨tr', _, h1, h2, h3, rfl, page_rekey nanoS d, fun e e' hev => ⟨rfl, rfl, ?_⟩⟩
    have hk := h.inv.key
    subst hk
    exact (step_rekey nanoS d hev).2
  induction h with
  | boot =>
    intro es' hes
    cases hes
    exact ⟨[], .boot, rfl, .nil⟩
  | @step tr d e h hh hu ih =>
    intro es' hes
    simp only [List.map_cons] at hes
    cases hes with
    | @cons _ e' _ es' hev hes =>
      obtain ⟨tr', h1, h2, h3⟩ := ih es' hes
      have hk := h.inv.key
      subst hk
      obtain ⟨hs, ho⟩ := step_rekey nanoS d hev
      have hn : ∀ r : Reply, r = .hang ∨ r = .ub → (d.step env nanoS e).2 ≠ r →
          ((d.rekey key').step (env.mac H) nanoS e').2 ≠ r := by
        intro r hr hne he
        rcases ho with ho | ⟨_, body, _, ho⟩
        · exact hne (ho.symm.trans he)
        · rw [ho] at he
          rcases hr with rfl | rfl <;> simp at he
      have hr := Runs.step e' h1 (hn _ (.inl rfl) hh) (hn _ (.inr rfl) hu)
      rw [hs] at hr
      refine ⟨_, hr, ?_, .cons ⟨rfl, rfl, ho⟩ h3⟩
      simp only [List.map_cons, h2]
      rfl

/-- The toy environment with another authentication function. -/
def macEnv : Env := { toyEnv with hmac := fun k b => List.replicate 32 (k.getD 0 0 + b.getD 32 0) }

theorem macEnv_same : SameButMac toyEnv macEnv := ⟨rfl, rfl, rfl, rfl, rfl, rfl⟩

/-- The frame of the demo with a tag of the other world. -/
def macFrame : Bytes := demoFrame 1 1 0 100 [] [] |>.take 43 |> (· ++ List.replicate 16 6 ++ [0, 0, 0, 0])

/-- It is the same frame; the tags differ and both are correct. -/
example : SameButTag toyEnv [1] macEnv [5] (cmd 0x21 0x12 7 (demoFrame 1 1 0 100 [] [0, 0, 0, 0]))
    (cmd 0x21 0x12 7 macFrame) ∧ demoFrame 1 1 0 100 [] [0, 0, 0, 0] ≠ macFrame ∧
    TagOk toyEnv [1] (demoFrame 1 1 0 100 [] [0, 0, 0, 0]) ∧ TagOk macEnv [5] macFrame := by
  have h1 : TagOk toyEnv [1] (demoFrame 1 1 0 100 [] [0, 0, 0, 0]) := by unfold TagOk; decide +kernel
  have h2 : TagOk macEnv [5] macFrame := by unfold TagOk; decide +kernel
  refine ⟨.frame ?_, by decide +kernel, h1, h2⟩
  exact .retag (body := (demoFrame 1 1 0 100 [] []).take 43) (tag := List.replicate 16 9)
    (tag' := List.replicate 16 6) (rest := [0, 0, 0, 0]) (by decide +kernel) rfl rfl (iff_of_true h1 h2)

/-- The same session in both worlds, each with its own tag: the same replies and the same signature;
with the tag of the wrong world the frame is refused. -/
example :
    let own := demoOpen ++ demoTx ++ demoConfirm
    let other := demoOpen ++ (demoTx.set 1 (cmd 0x21 0x12 7 macFrame)) ++ demoConfirm
    ((Device.boot [1]).run toyEnv false own).2 = ((Device.boot [5]).run macEnv false other).2 ∧
      ((Device.boot [5]).run macEnv false own).2[3]? = some (status 0xE018) ∧
      ((Device.boot [1]).run toyEnv false other).2[3]? = some (status 0xE018) := by
  decide +kernel

/-- A released frame: the same bytes, each world's tag. -/
example : ∃ body, ((Device.boot [1]).run toyEnv false demoAttest).2.getLast? =
      some (.sw 0x9000 (body ++ List.replicate 16 9)) ∧
    ((Device.boot [5]).run macEnv false demoAttest).2.getLast? =
      some (.sw 0x9000 (body ++ List.replicate 16 6)) :=
  ⟨List.replicate 31 7 ++ [73] ++ [1, 0, 0, 0, 0, 0, 0, 0, 0, 9, 0], by decide +kernel, by decide +kernel⟩

end Ergo
