import Verif.Model.Obj

/-!
# Model of the derived default of objects (`/repo/src/obj.rs`)

The defaults of `Group` and `SmoothingGroup` and `Material::new` are in the models of the parsers.
-/

namespace Verif.Obj

/-- `#[derive(Default)]` of `Object` (obj.rs:387-408): every field has its default, which is empty for
`String` and `Vec`. -/
def Object.default {F : Type} : Object F where
  name := []
  vertex_set := []
  texture_vertex_set := []
  normal_vertex_set := []
  group_set := []
  smoothing_group_set := []
  element_set := []
  shape_set := []
  geometry_set := []

end Verif.Obj
