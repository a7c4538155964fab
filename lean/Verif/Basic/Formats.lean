import Verif.Basic.Rounding

namespace Verif
variable {K : Type _} [Field K] [LinearOrder K] [IsStrictOrderedRing K] [FloorRing K]

/-- numpy's float32, without overflow -/
def float32 : Rounding K := binary 24 (-149) (by norm_num) (by norm_num)

/-- numpy's float16, without overflow -/
def float16 : Rounding K := binary 11 (-24) (by norm_num) (by norm_num)

end Verif
