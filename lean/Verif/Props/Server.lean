/-
C69: the methods a server has without implementing them.
-/
import Verif.Server

namespace Bsp

/-- The results given without implementing anything, by method: an empty list, or null. -/
def Spec.defaultResult : String → Option Json
  | "build/shutdown" | "workspace/reload" => some .null
  | "workspace/buildTargets" | "textDocument/inverseSources" => some (.obj [("targets", .arr [])])
  | "buildTarget/sources" | "buildTarget/dependencySources" | "buildTarget/resources" =>
    some (.obj [("items", .arr [])])
  | _ => none

/-- C69 (partial; missing: six methods, which panic, see C69_violated): each of the seven methods above answers, for
every params, with the empty result, and does not panic. -/
theorem C69_partial [Ext] (r : Request) (j : Json) (h : Spec.defaultResult r.method = some j)
    (hc : ∀ id m v, r ≠ .custom id m v) :
    ∃ v, Server.dispatch r = some (.ok v) ∧ v.json = j := by
  cases r <;> first
    | exact absurd rfl (hc _ _ _)
    | (simp only [Request.method, Spec.defaultResult] at h; cases h; exact ⟨_, rfl, rfl⟩)
    | (simp [Request.method, Spec.defaultResult] at h)

/-- C69 (violated): every other method that a request of the protocol invokes panics, whatever the params, except
`initialize`, which has no default. -/
theorem C69_violated [Ext] (r : Request) (h : Spec.defaultResult r.method = none)
    (hc : ∀ id m v, r ≠ .custom id m v) (hi : ∀ id p, r ≠ .initializeBuild id p) :
    Server.dispatch r = some .panic := by
  cases r <;> first
    | exact absurd rfl (hc _ _ _)
    | exact absurd rfl (hi _ _)
    | rfl
    | (simp [Request.method, Spec.defaultResult] at h)

section
attribute [local instance] Ext.sample
/-- Beside C69: a request for sources, and a request to compile. -/
example : ∃ v, Server.dispatch (.buildTargetSources (.i32 1) ⟨[]⟩) = some (.ok v) ∧
    v.json = .obj [("items", .arr [])] :=
  C69_partial _ _ rfl (by simp)
example (u : Ext.Url) : Server.dispatch (.buildTargetCompile (.i32 1) ⟨⟨u⟩, none, none⟩) = some .panic :=
  C69_violated _ rfl (by simp) (by simp)
end

end Bsp
