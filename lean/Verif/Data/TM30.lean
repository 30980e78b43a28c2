import Verif.Data.TM30_1
import Verif.Data.TM30_2
import Verif.Data.TM30_3
import Verif.Data.TM30_4

/-! IES TM-30-15 colour evaluation samples.  Generated by `tools/gen_data.py`. -/

namespace CS.Data.TM30

/-- `TM_30_15::sample` (hpp:6184-6190), in the order of the header. -/
def sample : List Table := [
    CES01, CES02, CES03, CES04, CES05, CES06, CES07, CES08, CES09, CES10, CES11,
    CES12, CES13, CES14, CES15, CES16, CES17, CES18, CES19, CES20, CES21, CES22,
    CES23, CES24, CES25, CES26, CES27, CES28, CES29, CES30, CES31, CES32, CES33,
    CES34, CES35, CES36, CES37, CES38, CES39, CES40, CES41, CES42, CES43, CES44,
    CES45, CES46, CES47, CES48, CES49, CES50, CES51, CES52, CES53, CES54, CES55,
    CES56, CES57, CES58, CES59, CES60, CES61, CES62, CES63, CES64, CES65, CES66,
    CES67, CES68, CES69, CES70, CES71, CES72, CES73, CES74, CES75, CES76, CES77,
    CES78, CES79, CES80, CES81, CES82, CES83, CES84, CES85, CES86, CES87, CES88,
    CES89, CES90, CES91, CES92, CES93, CES94, CES95, CES96, CES97, CES98, CES99]

end CS.Data.TM30
