/-!
# Certificates for the `float` tables

For every exponent one pair of denominators of two neighbouring fractions; see `Verif.Float.RtCheck`.  The numbers
carry no meaning of their own: `RtCheck` checks them.
-/
namespace Verif.Float

/-- Part 0: one pair of denominators per exponent, smallest exponent first. -/
def certs32_0 : List (Nat × Nat) := [
  (17246681, 28892438), (17246681, 31692900), (17246681, 33093131),
  (21447374, 14446219), (10723687, 25169906), (23308640, 12584953),
  (24239273, 12584953), (33101694, 12584953), (29135800, 12584953),
  (27152853, 12584953), (1982947, 33180560), (32453856, 30470909),
  (16226928, 30470909), (16226928, 22539121), (8113464, 30652585),
  (4056732, 30652585), (2028366, 32680951), (10141830, 32680951),
  (5070915, 32680951), (5070915, 29017763), (25354575, 29017763),
  (25354575, 27186169), (25354575, 26270372), (33361581, 915797),
  (32707238, 915797), (31006371, 31922168), (31006371, 15961084),
  (15045287, 19624272), (15045287, 24857423), (15045287, 19951355),
  (25184506, 24857423), (12592253, 24857423), (18724838, 24857423),
  (12592253, 30662925), (12592253, 21627589), (29702174, 17109921),
  (31961008, 17109921), (22925672, 17109921), (28572757, 17109921),
  (22841339, 17109921), (22841339, 17025588), (22841339, 31354133),
  (22841339, 27097736), (22841339, 21281985), (22841339, 22061662),
  (22841339, 11030831), (22841339, 16936085), (22841339, 16156408),
  (22841339, 30919543), (22841339, 26880441), (18802237, 20195510),
  (18802237, 28899992), (33252233, 14449996), (33252233, 5745514),
  (33252233, 2872757), (33252233, 18062495), (15189738, 29553523),
  (7594869, 29553523), (7594869, 26169065), (32071705, 24476836),
  (32897658, 1692229), (19833287, 21525516), (19833287, 30596045),
  (28903816, 12454987), (14451908, 26906895), (7225954, 26906895),
  (30900737, 5229033), (18064885, 23293918), (29711844, 11646959),
  (14855922, 26502881), (32920807, 8437996), (32920807, 4218998),
  (32920807, 2109499), (30811308, 10547495), (15405654, 25953149),
  (7702827, 25953149), (32824799, 2844668), (32824799, 1422334),
  (33535966, 711167), (19612651, 20323818), (18901484, 22457319),
  (9450742, 31908061), (4725371, 31908061), (23626855, 13006577),
  (23626855, 18316716), (32785213, 9158358), (30398914, 3848219),
  (19047676, 22895895), (32419733, 22895895), (32419733, 27657814),
  (23809595, 13372057), (18590826, 31962883), (9295413, 31962883),
  (14514182, 31962883), (7257091, 31962883), (26867078, 19609987),
  (26867078, 17448701), (13433539, 30882240), (13433539, 28874659),
  (13433539, 21154099), (19146518, 28874659), (9573259, 28874659),
  (28797218, 19223959), (9495818, 28874659), (4747909, 28874659),
  (16811284, 28874659), (4747909, 31829421), (4747909, 32532392),
  (21014105, 16266196), (21014105, 29147203), (17628916, 29147203),
  (8814458, 29147203), (33554432, 29147203), (33554432, 11518287),
  (16777216, 28295503), (8388608, 28295503), (8388608, 32425611),
  (4194304, 32425611), (2097152, 32425611), (1048576, 33474187),
  (1048576, 33153207), (524288, 33153207), (262144, 33415351),
  (262144, 33383315), (131072, 33514387), (65536, 33514387),
  (65536, 33550815), (32768, 33550815), (16384, 33550815),
  (8192, 33550815), (8192, 33552731), (4096, 33552731),
  (2048, 33552731), (2048, 33554119), (1024, 33554119),
  (512, 33554119), (512, 33554403), (256, 33554403),
  (128, 33554403), (64, 33554403), (64, 33554415),
  (32, 33554415), (16, 33554431), (16, 33554427),
  (8, 33554427), (4, 33554431), (4, 33554431),
  (2, 33554431), (1, 33554432), (1, 33554432),
  (1, 33554432), (1, 33554432), (1, 33554432),
  (1, 33554432), (1, 33554432), (1, 33554432),
  (5, 33554432), (5, 33554431), (5, 33554428),
  (25, 33554408), (25, 33554429), (25, 33554427),
  (25, 33554426), (125, 33554401), (125, 33554388),
  (125, 33554319), (625, 33554319), (625, 33554347),
  (625, 33554361), (3125, 33551861), (3125, 33552493),
  (3125, 33552809), (3125, 33552967), (15625, 33549842),
  (15625, 33540546), (15625, 33551523), (78125, 33489023),
  (78125, 33502324), (78125, 33548037), (390625, 33313662),
  (390625, 33453706), (390625, 33523728), (390625, 33168114),
  (1953125, 31605614), (1953125, 33380932), (1953125, 32315466),
  (9765625, 26456091), (9765625, 27876483), (9765625, 28586679),
  (10475821, 27876483), (29651973, 19176152), (29651973, 9588076),
  (29651973, 4794038), (10475821, 23970190), (22460916, 11985095),
  (23215553, 11985095), (23215553, 13494369), (23215553, 18354961),
  (23215553, 20785257), (25645849, 13494369), (25645849, 19570109),
  (25645849, 22607979), (24126914, 22607979), (25645849, 18051174),
  (25645849, 9025587), (17335718, 26361305), (17335718, 27792217),
  (8667859, 27792217), (8667859, 26897897), (24214937, 9562179),
  (16888558, 26450737), (8444279, 26450737), (25891787, 17447508),
  (7885329, 26450737), (17168033, 26450737), (17168033, 21809385),
  (30143941, 4641352), (32464617, 2320676), (32464617, 1160338),
  (32464617, 5801690), (32464617, 2900845), (32186956, 2900845),
  (24796013, 27696858), (21895168, 14504225), (10947584, 25451809),
  (5473792, 30925601), (5473792, 28730789), (2736896, 31467685),
  (1368448, 32836133), (6842240, 32836133), (3421120, 32836133),
  (1710560, 32836133), (855280, 32836133), (4276400, 32836133),
  (2138200, 32836133), (1069100, 32836133), (5345500, 31767033),
  (2672750, 31767033), (1336375, 33103408), (6681875, 33103408),
  (6681875, 29915454), (6681875, 28321477), (6681875, 30865426),
  (33409375, 10819801), (33409375, 22114588), (33409375, 11057294),
  (11294787, 32696896), (11294787, 27643235), (19469011, 27643235),
  (30763798, 5053661), (15381899, 20435560), (15381899, 25599679),
  (15381899, 20325102), (15381899, 25544450)]

/-- All pairs. -/
def certs32 : List (Nat × Nat) :=
  certs32_0

end Verif.Float
