import Verif.Proofs.Source.Tokens
/-!
The methods of contracts/score_registry.
-/
set_option autoImplicit false
namespace Verif.Src
attribute [local irreducible] glob find findNext function const mroOf ifaceHas fields cfields Verif.ZERO

variable (cx : Ctx) (L : Nat) {n : Nat} (w : World)

theorem inv_getAddress (h : 1 ≤ n) (s : String) :
    invoke (Cx.of cx "ScoreRegistry" L) n "ScoreRegistry" (some "ScoreRegistry") tScoreRegistry_getAddress [.str s] w =
      opt (ScoreRegistry.getAddress cx s) w >>- fun p => some (.addr p.1, p.2) := by
  py_start tScoreRegistry_getAddress [ScoreRegistry.getAddress]
  cases w.reg cx.fr.to s <;> simp [optAddr]

theorem inv_getScoreIds (h : 1 ≤ n) :
    invoke (Cx.of cx "ScoreRegistry" L) n "ScoreRegistry" (some "ScoreRegistry") tScoreRegistry_getScoreIds [] w =
      some (.list [.str "ScoreRegistry", .str "Network"], w) := by
  py_start tScoreRegistry_getScoreIds

theorem isIn_keys (s : String) : isIn (.str s) (.list [.str "ScoreRegistry", .str "Network"]) = some (decide (s ∈ ScoreRegistry.SCORE_KEYS)) := by
  simp only [isIn, ScoreRegistry.SCORE_KEYS, ScoreRegistry.SCORE_REGISTRY, ScoreRegistry.NETWORK, pyEq, List.any_cons, List.any_nil,
    List.mem_cons, List.not_mem_nil]
  by_cases h : s = "ScoreRegistry"
  · subst h; simp
  · by_cases h2 : s = "Network"
    · subst h2; simp
    · simp [h, h2, Ne.symm h, Ne.symm h2, eq_comm]

@[py] theorem inv_registerAddress (h : 3 ≤ n) (s : String) (a : Addr) :
    invoke (Cx.of cx "ScoreRegistry" L) n "ScoreRegistry" (some "ScoreRegistry") tScoreRegistry_registerAddress [.str s, .addr a] w =
      opt (ScoreRegistry.registerAddress cx s a) w >>- fun p => some (.none, p.2) := by
  py_start tScoreRegistry_registerAddress [ScoreRegistry.registerAddress, isIn_keys]
  py_go [isIn_keys]

theorem inv_unregisterAddress (h : 2 ≤ n) (s : String) :
    invoke (Cx.of cx "ScoreRegistry" L) n "ScoreRegistry" (some "ScoreRegistry") tScoreRegistry_unregisterAddress [.str s] w =
      opt (ScoreRegistry.unregisterAddress cx s) w >>- fun p => some (.none, p.2) := by
  py_start tScoreRegistry_unregisterAddress [ScoreRegistry.unregisterAddress]
  py_go

theorem inv_regInstall (h : 4 ≤ n) :
    invoke (Cx.of cx "ScoreRegistry" L) n "ScoreRegistry" (some "ScoreRegistry") tScoreRegistry_on_install [] w =
      opt (ScoreRegistry.onInstall cx) w >>- fun p => some (.none, p.2) := by
  py_start tScoreRegistry_on_install [ScoreRegistry.onInstall, ScoreRegistry.SCORE_REGISTRY]
  py_go

end Verif.Src
