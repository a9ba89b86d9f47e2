/- GENERATED by tools/gen_emlines.py from /repo/dsps/data/emlines_info.dat -/
import Verif.Py

namespace Dsps.EmlinesInfo
open Py

/-- `/repo/dsps/data/emlines_info.dat:1-166`, one entry per line, without the line terminators. -/
def lines : List Str := [
  chars! "923.15,Ly-8 923",
  chars! "926.226,Ly-7 926",
  chars! "930.748,Ly-6 930",
  chars! "937.804,Ly-5 937",
  chars! "949.743,Ly-delta 949.749A",
  chars! "972.537,Ly-gamma 972",
  chars! "1025.72,Ly-beta 1025",
  chars! "1084.94,He II 1084.94A",
  chars! "1215.13,He II 1215.13A",
  chars! "1215.67,Ly-alpha 1215",
  chars! "1486.5,[N IV] 1486",
  chars! "1548.19,C IV 1548",
  chars! "1550.78,C IV 1551",
  chars! "1640.43,He II 1640",
  chars! "1660.81,[O III] 1661",
  chars! "1666,[O III] 1666",
  chars! "1814.56,[Ne III] 1815",
  chars! "1854.72,[Al III] 1855",
  chars! "1862.79,[Al III] 1863",
  chars! "1906.68,[C III] 1907",
  chars! "1908.73,[C III] 1910",
  chars! "2141.7057,[N II] 2141",
  chars! "2321.6986,[O III] 2321",
  chars! "2324.2492,[C II] 2324",
  chars! "2325.4395,[C II] 2325",
  chars! "2327.6801,[C II] 2327",
  chars! "2328.8703,[C II] 2328",
  chars! "2424.7739,Blnd 2424",
  chars! "2471.7856,[O II] 2471",
  chars! "2661.1836,[Al II] 2660",
  chars! "2669.9859,[Al II] 2670",
  chars! "2796.3985,[Mg II] 2795.53A",
  chars! "2803.5804,[Mg II] 2802.71A",
  chars! "2854.5437,Ar IV 2854",
  chars! "3110.1312,[Ar III] 3109",
  chars! "3343.1936,[Ne III] 3343",
  chars! "3427.0663,[Ne V] 3426",
  chars! "3722.7468,[S III] 3722",
  chars! "3727.118,[O II] 3726",
  chars! "3730.1188,[O II] 3729",
  chars! "3799.0277,Ba-8 3798",
  chars! "3836.528,Ba-7 3835",
  chars! "3868.1567,[O II] 3867",
  chars! "3869.9172,[Ne III] 3869",
  chars! "3889.7926,He I 3888.63A",
  chars! "3890.2127,Ba-6 3889",
  chars! "3968.6543,[Ne III] 3968",
  chars! "3971.2551,Ba-5 3970",
  chars! "4069.8122,[S II] 4070",
  chars! "4077.5644,[S II] 4078",
  chars! "4102.9514,Ba-delta 4101.76A",
  chars! "4341.7476,Ba-gamma 4341",
  chars! "4364.2938,[O III] 4363",
  chars! "4472.814,He I 4471.49A",
  chars! "4622.9359,[C  I] 4621",
  chars! "4687.0237,He II 4685.64A",
  chars! "4712.6509,[Ar IV] 4711",
  chars! "4721.3933,[Ne IV] 4720",
  chars! "4741.519,[Ar IV] 4740",
  chars! "4862.7629,Ba-beta 4861",
  chars! "4932.6825,[O III] 4931",
  chars! "4960.3702,[O III] 4959",
  chars! "5008.3137,[O III] 5007",
  chars! "5193.3456,[Ar III] 5192",
  chars! "5201.788,[N I] 5200",
  chars! "5519.3273,[Cl III] 5518",
  chars! "5539.493,[Cl III] 5538",
  chars! "5578.9741,[O I] 5577",
  chars! "5756.2941,[N II] 5755",
  chars! "5877.3583,He I 5875.64A",
  chars! "6302.1385,[O I] 6300",
  chars! "6313.9018,[S III] 6312",
  chars! "6365.6364,[O I] 6363",
  chars! "6549.9587,[N II] 6548",
  chars! "6564.7229,Ba-alpha 6563",
  chars! "6585.3687,[N II] 6584",
  chars! "6680.0956,He I 6678.15A",
  chars! "6718.3965,[S II] 6716",
  chars! "6732.7805,[S II] 6731",
  chars! "7067.2755,He I 7065.22A",
  chars! "7137.8656,[Ar III] 7135",
  chars! "7172.7855,[Ar IV] 7171",
  chars! "7239.8746,[Ar IV] 7237",
  chars! "7265.4418,[Ar IV] 7263",
  chars! "7325.1288,[O II] 7323",
  chars! "7334.1314,[O II] 7332",
  chars! "7334.2814,[Ar IV] 7332",
  chars! "7753.3606,[Ar III] 7751",
  chars! "8581.1866,[Cl II] 8579",
  chars! "8729.6589,[C I] 8727",
  chars! "9017.4811,Pa-7 9015",
  chars! "9071.2464,[S III] 9069",
  chars! "9126.2421,[Cl II] 9124",
  chars! "9231.6422,Pa-6 9229",
  chars! "9533.3784,[S III] 9532",
  chars! "9548.6928,Pa-5 9546",
  chars! "9852.8497,[C I] 9850",
  chars! "10052.207,Pa-delta 1.00494um",
  chars! "10111.824,Fe VI 1.01089m",
  chars! "10126.228,He II 1.01233um",
  chars! "10323.484,[S II] 1.0324um",
  chars! "10833.43,He I 1.08303um",
  chars! "10941.161,Pa-gamma 1.09381um",
  chars! "12570.427,Fe II 1.25668um",
  chars! "12821.699,Pa-beta 1.28181um",
  chars! "17367.003,Br-6 1.73621um",
  chars! "18179.236,Br-5 1.81741um",
  chars! "18756.402,Pa-alpha 1.8751um",
  chars! "19451.001,Br-delta 1.94456um",
  chars! "19630.353,[Si VI] 1.96247um",
  chars! "20587.227,He I 2.05813um",
  chars! "21661.336,Br-gamma 2.16553um",
  chars! "26258.856,Br-beta 2.62515um",
  chars! "29053.359,[Al V] 2.90450um",
  chars! "30392.244,Pf-5 3.03837um",
  chars! "32070.226,[Ca IV] 3.20610um",
  chars! "32970.185,Pf-delta 3.29609um",
  chars! "36603.729,[Al VI] 3.65932um",
  chars! "37405.86,Pf-gamma 3.73953um",
  chars! "40522.956,Br-alpha 4.05116um",
  chars! "44884.109,[Mg IV] 4.48712um",
  chars! "45293.027,[Ar VI] 4.52800um",
  chars! "46538.085,Pf-beta 4.65250um",
  chars! "51286.95,Hu-delta 5.12725um",
  chars! "56086.13,[Mg V] 5.60700um",
  chars! "59082.491,Hu-gamma 5.90659um",
  chars! "59820.203,K IV 5.98030m",
  chars! "69853.788,Ar II 6.98337um",
  chars! "73191.647,Na III 7.31706m",
  chars! "74599.152,Pf-alpha 7.45781um",
  chars! "75025.374,Hu-beta 7.50043um",
  chars! "76453.785,[Ne VI] 7.64318um",
  chars! "78126.166,[Fe VII] 7.81037m",
  chars! "79019.823,[Ar V] 7.89971um",
  chars! "89915.656,Ar III 8.98898um",
  chars! "90335.776,[Na IV] 9.03098um",
  chars! "95103.647,[Fe VII] 9.50763m",
  chars! "105106.22,[S IV] 10.5076um",
  chars! "123109.4,[Fe VI] 12.3074m",
  chars! "123719.57,Hu-alpha 12.3685um",
  chars! "128137.85,Ne II 12.8101um",
  chars! "131022.67,[Ar V] 13.0985um",
  chars! "143269.2,[Ne V] 14.3228um",
  chars! "143680.31,Cl II 14.3639um",
  chars! "147712.47,[Fe VI] 14.7670m",
  chars! "155553.73,Ne III 15.5509um",
  chars! "187131.81,S III 18.7078um",
  chars! "195583.24,[Fe VI] 19.5527m",
  chars! "218362.79,Ar III 21.8300um",
  chars! "242134.62,[Ne V] 24.2065um",
  chars! "258906.44,O IV 25.8832um",
  chars! "328714.52,P II 32.8620um",
  chars! "334800.27,S III 33.4704um",
  chars! "348146.1,Si II 34.8046um",
  chars! "360139.55,Ne III 36.0036um",
  chars! "518152.99,O III 51.8004um",
  chars! "573402.87,N III 57.3238um",
  chars! "606437.37,P II 60.6263um",
  chars! "631860.68,O I 63.1679um",
  chars! "883577.06,O III 88.3323um",
  chars! "1218020.2,N II 121.767um",
  chars! "1455368.5,O I 145.495um",
  chars! "1576813.4,C II 157.636um",
  chars! "2053030.3,N II 205.244um",
  chars! "3703755,[C I] 370.269um",
  chars! "6097653.3,[C I] 609.590um"]

/-- The text of the shipped file: every line ends with a newline. -/
def contents : Str := (lines.map fun l => l ++ ['\n']).flatten

end Dsps.EmlinesInfo
