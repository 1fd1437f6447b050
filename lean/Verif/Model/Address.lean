import Verif.Model.Store

/-! Machine addresses: what the code asks of the allocator for the memory of a page, and where a component lies in it.

The base address of each page is chosen by the allocator, so it is a parameter (`base`, from page indices to addresses). -/

namespace Ecs

/-- `std::alloc::Layout`: what an allocation asks for. -/
structure MemLayout where
  size : Nat
  align : Nat
deriving DecidableEq, Repr

/-- `src/mem_utils.rs:53-58` `layout_of::<T>(capacity)`, for a type `T` of the given size and alignment. -/
def MemLayout.of (size align capacity : Nat) : MemLayout := ⟨size * capacity, align⟩

/-- `src/archetype_data_page.rs:19` and `src/mem_utils.rs:13-15`: the memory of a page is allocated as `PAGE_SIZE` elements
of type `u8` (size 1, alignment 1). -/
def pageMemory : MemLayout := .of 1 1 PAGE_SIZE

/-- The address of a component: `src/component_tuple.rs:124-146` adds the offset to the pointer to the page's memory. -/
def Ref.address (base : Nat → Nat) (r : Ref) : Nat := base r.page + r.off

end Ecs
