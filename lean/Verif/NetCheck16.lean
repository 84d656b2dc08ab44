import Verif.NetCheck

/-! The largest merge check (256 keys, 129 * 129 inputs). -/

namespace Hwy
namespace VQ
namespace Net

theorem check_merge16x16 : mergeCheck 16 8 merge16x16 = true := by decide +kernel

end Net
end VQ
end Hwy
