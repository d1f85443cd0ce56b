import Verif.Model.LR
/-! # The tables of the parser for dREL

Computed from the grammar of `/repo/src/drel/drel_ast_yacc.py` by the LALR(1) method with the conflicts resolved as in PLY: shifting is preferred
to reducing, and of two productions the earlier one is taken. `yacc.yacc()` in line 582 computes its tables when the module is imported; they are
not part of `/repo`. States are numbered in the order in which they are found here, which may differ from the numbering of PLY. -/
namespace Verif
namespace Drel

/-- Actions of each state (drel_ast_yacc.py 582), states 0 to 15. -/
def actionRows0 : List (List Nat) := [
  [762, 20354, 20355, 20356, 20364, 20372, 20373, 20380, 20381, 20382, 20383, 20384, 20385, 20386, 20387, 20388, 20389, 20390, 20391, 20393,
    20394, 20396, 20401, 20403, 20404, 20406, 20407, 20408, 20409],
  [0, 1858, 1987, 2116, 3148, 3797, 3924, 4828, 5341, 5598, 5727, 5856, 5985, 6114, 6243, 6372, 6501, 6630, 7271, 7401, 7530, 7660, 8817,
    8947, 9204, 9462, 9591, 9848, 9977],
  [1858, 1987, 2116, 3148, 3797, 3924, 4828, 5341, 5598, 5727, 5856, 5985, 6114, 6243, 6372, 6501, 6630, 7271, 7401, 7530, 7660, 8817, 8947,
    9204, 9462, 9591, 9848, 9977],
  [10234, 19840, 19842, 19843, 19844, 19852, 19860, 19861, 19868, 19869, 19870, 19871, 19872, 19873, 19874, 19875, 19876, 19877, 19878, 19879,
    19881, 19882, 19883, 19884, 19885, 19888, 19889, 19890, 19891, 19892, 19894, 19895, 19896, 19897],
  [19968, 19970, 19971, 19972, 19980, 19988, 19989, 19996, 19997, 19998, 19999, 20000, 20001, 20002, 20003, 20004, 20005, 20006, 20007, 20009,
    20010, 20011, 20012, 20013, 20016, 20017, 20018, 20019, 20020, 20022, 20023, 20024, 20025],
  [20096, 20098, 20099, 20100, 20108, 20116, 20117, 20124, 20125, 20126, 20127, 20128, 20129, 20130, 20131, 20132, 20133, 20134, 20135, 20137,
    20138, 20139, 20140, 20141, 20144, 20145, 20146, 20147, 20148, 20150, 20151, 20152, 20153, 20154],
  [384, 386, 387, 388, 396, 404, 405, 412, 413, 414, 415, 416, 417, 418, 419, 420, 421, 422, 423, 425, 426, 428, 433, 435, 436, 438, 439, 440,
    441],
  [762, 10433],
  [768, 770, 771, 772, 780, 788, 789, 796, 797, 798, 799, 800, 801, 802, 803, 804, 805, 806, 807, 809, 810, 812, 813, 816, 817, 818, 819, 820,
    822, 823, 824, 825],
  [897, 954],
  [1409, 1466],
  [1537, 1594],
  [1665, 1722],
  [1793, 1850],
  [1921, 1978],
  [2049, 2106]]

/-- Actions of each state (drel_ast_yacc.py 582), states 16 to 31. -/
def actionRows1 : List (List Nat) := [
  [3148, 3797, 3924, 5341, 5598, 5727, 5856, 5985, 6114, 6243, 6372, 6501, 6630, 7271, 7401, 7530, 7660, 10716],
  [2305, 2362, 10821, 10950, 11079],
  [2689, 2746],
  [2817, 2818, 2819, 2820, 2821, 2822, 2823, 2828, 2836, 2837, 2844, 2845, 2846, 2847, 2848, 2849, 2850, 2851, 2852, 2853, 2854, 2855, 2856,
    2857, 2858, 2860, 2865, 2867, 2868, 2870, 2871, 2872, 2873, 2874],
  [3073, 3074, 3075, 3076, 3077, 3078, 3079, 3084, 3092, 3093, 3100, 3101, 3102, 3103, 3104, 3105, 3106, 3107, 3108, 3109, 3110, 3111, 3112,
    3113, 3114, 3115, 3116, 3117, 3118, 3121, 3123, 3124, 3126, 3127, 3128, 3129, 3130, 11208, 11337],
  [3201, 3202, 3203, 3204, 3205, 3206, 3207, 3208, 3209, 3212, 3220, 3221, 3228, 3229, 3230, 3231, 3232, 3233, 3234, 3235, 3236, 3237, 3238,
    3239, 3240, 3241, 3242, 3243, 3244, 3245, 3246, 3249, 3251, 3252, 3254, 3255, 3256, 3257, 3258, 11466, 11595],
  [3585, 3586, 3587, 3588, 3589, 3590, 3591, 3592, 3593, 3594, 3595, 3596, 3604, 3605, 3612, 3613, 3614, 3615, 3616, 3617, 3618, 3619, 3620,
    3621, 3622, 3623, 3624, 3625, 3626, 3627, 3628, 3629, 3630, 3633, 3635, 3636, 3638, 3639, 3640, 3641, 3642],
  [3969, 3970, 3971, 3972, 3973, 3974, 3975, 3976, 3977, 3978, 3979, 3980, 3988, 3989, 3996, 3997, 3998, 3999, 4000, 4001, 4002, 4003, 4004,
    4005, 4006, 4007, 4008, 4009, 4010, 4011, 4012, 4013, 4014, 4017, 4019, 4020, 4022, 4023, 4024, 4025, 4026],
  [3148, 3797, 3924, 5341, 5598, 5727, 5856, 5985, 6114, 6243, 6372, 6501, 6630, 7271, 7401, 7530, 7660, 10716],
  [4225, 4226, 4227, 4228, 4229, 4230, 4231, 4232, 4233, 4234, 4235, 4252, 4253, 4254, 4255, 4256, 4257, 4258, 4259, 4260, 4261, 4262, 4263,
    4264, 4265, 4266, 4267, 4268, 4269, 4270, 4273, 4275, 4276, 4278, 4279, 4280, 4281, 4282, 12109, 12236, 12366, 12495, 12624, 12753, 12882,
    13011, 13140, 13269],
  [5633, 5634, 5635, 5636, 5637, 5638, 5639, 5640, 5641, 5642, 5643, 5644, 5645, 5646, 5647, 5648, 5649, 5650, 5651, 5652, 5653, 5660, 5661,
    5662, 5663, 5664, 5665, 5666, 5667, 5668, 5669, 5670, 5671, 5672, 5673, 5674, 5675, 5676, 5677, 5678, 5681, 5683, 5684, 5686, 5687, 5688,
    5689, 5690, 13398, 13527, 13656, 13785, 13914],
  [6017, 6018, 6019, 6020, 6021, 6022, 6023, 6024, 6025, 6026, 6027, 6028, 6029, 6030, 6031, 6032, 6033, 6034, 6035, 6036, 6037, 6038, 6039,
    6040, 6041, 6042, 6044, 6045, 6046, 6047, 6048, 6049, 6050, 6051, 6052, 6053, 6054, 6055, 6056, 6057, 6058, 6059, 6060, 6061, 6062, 6065,
    6067, 6068, 6070, 6071, 6072, 6073, 6074],
  [6785, 6786, 6787, 6788, 6789, 6790, 6791, 6792, 6793, 6794, 6795, 6796, 6797, 6798, 6799, 6800, 6801, 6802, 6803, 6804, 6805, 6806, 6807,
    6808, 6809, 6810, 6812, 6813, 6814, 6815, 6816, 6817, 6818, 6819, 6820, 6821, 6822, 6823, 6824, 6825, 6826, 6827, 6828, 6829, 6830, 6833,
    6835, 6836, 6838, 6839, 6840, 6841, 6842],
  [3797, 3924, 5341, 5598, 5727, 5856, 5985, 6114, 6243, 6372, 6501, 6630, 7271, 7401, 7530, 7660, 10716],
  [3797, 3924, 5341, 5598, 5727, 5856, 5985, 6114, 6243, 6372, 6501, 6630, 7271, 7401, 7530, 7660, 10716],
  [7169, 7170, 7171, 7172, 7173, 7174, 7175, 7176, 7177, 7178, 7179, 7180, 7181, 7182, 7183, 7184, 7185, 7186, 7187, 7188, 7189, 7190, 7191,
    7192, 7193, 7194, 7196, 7197, 7198, 7199, 7200, 7201, 7203, 7204, 7205, 7206, 7207, 7208, 7209, 7211, 7212, 7213, 7214, 7217, 7219, 7220,
    7222, 7223, 7224, 7225, 7226, 14299, 14575, 14690, 14826]]

/-- Actions of each state (drel_ast_yacc.py 582), states 32 to 47. -/
def actionRows2 : List (List Nat) := [
  [7425, 7426, 7427, 7428, 7429, 7430, 7431, 7432, 7433, 7434, 7435, 7436, 7437, 7438, 7439, 7440, 7441, 7442, 7443, 7444, 7445, 7446, 7447,
    7448, 7449, 7450, 7451, 7452, 7453, 7454, 7455, 7456, 7457, 7458, 7459, 7460, 7461, 7462, 7463, 7464, 7465, 7466, 7467, 7468, 7469, 7470,
    7471, 7473, 7475, 7476, 7478, 7479, 7480, 7481, 7482],
  [7553, 7554, 7555, 7556, 7557, 7558, 7559, 7560, 7561, 7562, 7563, 7564, 7565, 7566, 7567, 7568, 7569, 7570, 7571, 7572, 7573, 7574, 7575,
    7576, 7577, 7578, 7579, 7580, 7581, 7582, 7583, 7584, 7585, 7586, 7587, 7588, 7589, 7590, 7591, 7592, 7593, 7594, 7595, 7596, 7597, 7598,
    7599, 7601, 7603, 7604, 7606, 7607, 7608, 7609, 7610],
  [7681, 7682, 7683, 7684, 7685, 7686, 7687, 7688, 7689, 7690, 7691, 7692, 7693, 7694, 7695, 7696, 7697, 7698, 7699, 7700, 7701, 7702, 7703,
    7704, 7705, 7706, 7707, 7708, 7709, 7710, 7711, 7712, 7713, 7714, 7715, 7716, 7717, 7718, 7719, 7720, 7721, 7722, 7723, 7724, 7725, 7726,
    7727, 7729, 7731, 7732, 7734, 7735, 7736, 7737, 7738],
  [7809, 7810, 7811, 7812, 7813, 7814, 7815, 7816, 7817, 7818, 7819, 7820, 7821, 7822, 7823, 7824, 7825, 7826, 7827, 7828, 7829, 7830, 7831,
    7832, 7833, 7834, 7835, 7836, 7837, 7838, 7839, 7840, 7841, 7842, 7843, 7844, 7845, 7846, 7847, 7848, 7849, 7850, 7851, 7852, 7853, 7854,
    7855, 7857, 7859, 7860, 7862, 7863, 7864, 7865, 7866],
  [7937, 7938, 7939, 7940, 7941, 7942, 7943, 7944, 7945, 7946, 7947, 7948, 7949, 7950, 7951, 7952, 7953, 7954, 7955, 7956, 7957, 7958, 7959,
    7960, 7961, 7962, 7963, 7964, 7965, 7966, 7967, 7968, 7969, 7970, 7971, 7972, 7973, 7974, 7975, 7976, 7977, 7978, 7979, 7980, 7981, 7982,
    7983, 7985, 7987, 7988, 7990, 7991, 7992, 7993, 7994],
  [8065, 8069, 8070, 8071, 8072, 8073, 8074, 8075, 8076, 8077, 8078, 8079, 8080, 8081, 8082, 8083, 8084, 8085, 8086, 8087, 8088, 8089, 8090,
    8091, 8098, 8106, 8111, 8122, 14951],
  [8193, 8194, 8195, 8196, 8197, 8198, 8199, 8200, 8201, 8202, 8203, 8204, 8205, 8206, 8207, 8208, 8209, 8210, 8211, 8212, 8213, 8214, 8215,
    8216, 8217, 8218, 8219, 8220, 8221, 8222, 8223, 8224, 8225, 8226, 8227, 8228, 8229, 8230, 8231, 8232, 8233, 8234, 8235, 8236, 8237, 8238,
    8239, 8241, 8243, 8244, 8246, 8247, 8248, 8249, 8250],
  [8321, 8322, 8323, 8324, 8325, 8326, 8327, 8328, 8329, 8330, 8331, 8332, 8333, 8334, 8335, 8336, 8337, 8338, 8339, 8340, 8341, 8342, 8343,
    8344, 8345, 8346, 8347, 8348, 8349, 8350, 8351, 8352, 8353, 8354, 8355, 8356, 8357, 8358, 8359, 8360, 8361, 8362, 8363, 8364, 8365, 8366,
    8367, 8369, 8371, 8372, 8374, 8375, 8376, 8377, 8378],
  [8449, 8450, 8451, 8452, 8453, 8454, 8455, 8456, 8457, 8458, 8459, 8460, 8461, 8462, 8463, 8464, 8465, 8466, 8467, 8468, 8469, 8470, 8471,
    8472, 8473, 8474, 8475, 8476, 8477, 8478, 8479, 8480, 8481, 8482, 8483, 8484, 8485, 8486, 8487, 8488, 8489, 8490, 8491, 8492, 8493, 8494,
    8495, 8497, 8499, 8500, 8502, 8503, 8504, 8505, 8506],
  [8577, 8578, 8579, 8580, 8581, 8582, 8583, 8584, 8585, 8586, 8587, 8588, 8589, 8590, 8591, 8592, 8593, 8594, 8595, 8596, 8597, 8598, 8599,
    8600, 8601, 8602, 8603, 8604, 8605, 8606, 8607, 8608, 8609, 8610, 8611, 8612, 8613, 8614, 8615, 8616, 8617, 8618, 8619, 8620, 8621, 8622,
    8623, 8625, 8627, 8628, 8630, 8631, 8632, 8633, 8634],
  [8705, 8706, 8707, 8708, 8709, 8710, 8711, 8712, 8713, 8714, 8715, 8716, 8717, 8718, 8719, 8720, 8721, 8722, 8723, 8724, 8725, 8726, 8727,
    8728, 8729, 8730, 8731, 8732, 8733, 8734, 8735, 8736, 8737, 8738, 8739, 8740, 8741, 8742, 8743, 8744, 8745, 8746, 8747, 8748, 8749, 8750,
    8751, 8753, 8755, 8756, 8758, 8759, 8760, 8761, 8762],
  [8833, 8834, 8835, 8836, 8837, 8838, 8839, 8840, 8841, 8842, 8843, 8844, 8845, 8846, 8847, 8848, 8849, 8850, 8851, 8852, 8853, 8854, 8855,
    8856, 8857, 8858, 8859, 8860, 8861, 8862, 8863, 8864, 8865, 8866, 8867, 8868, 8869, 8870, 8871, 8872, 8873, 8874, 8875, 8876, 8877, 8878,
    8879, 8881, 8883, 8884, 8886, 8887, 8888, 8889, 8890],
  [8961, 8962, 8963, 8964, 8965, 8966, 8967, 8968, 8969, 8970, 8971, 8972, 8973, 8974, 8975, 8976, 8977, 8978, 8979, 8980, 8981, 8982, 8983,
    8984, 8985, 8986, 8987, 8988, 8989, 8990, 8991, 8992, 8993, 8994, 8995, 8996, 8997, 8998, 8999, 9000, 9001, 9002, 9003, 9004, 9005, 9006,
    9007, 9009, 9011, 9012, 9014, 9015, 9016, 9017, 9018],
  [9089, 9090, 9091, 9092, 9093, 9094, 9095, 9096, 9097, 9098, 9099, 9100, 9101, 9102, 9103, 9104, 9105, 9106, 9107, 9108, 9109, 9110, 9111,
    9112, 9113, 9114, 9115, 9116, 9117, 9118, 9119, 9120, 9121, 9122, 9123, 9124, 9125, 9126, 9127, 9128, 9129, 9130, 9131, 9132, 9133, 9134,
    9135, 9137, 9139, 9140, 9142, 9143, 9144, 9145, 9146],
  [9217, 9218, 9219, 9220, 9221, 9222, 9223, 9224, 9225, 9226, 9227, 9228, 9229, 9230, 9231, 9232, 9233, 9234, 9235, 9236, 9237, 9238, 9239,
    9240, 9241, 9242, 9243, 9244, 9245, 9246, 9247, 9248, 9249, 9250, 9251, 9252, 9253, 9254, 9255, 9256, 9257, 9258, 9259, 9260, 9261, 9262,
    9263, 9265, 9267, 9268, 9270, 9271, 9272, 9273, 9274],
  [9345, 9346, 9347, 9348, 9349, 9350, 9351, 9352, 9353, 9354, 9355, 9356, 9357, 9358, 9359, 9360, 9361, 9362, 9363, 9364, 9365, 9366, 9367,
    9368, 9369, 9370, 9371, 9372, 9373, 9374, 9375, 9376, 9377, 9378, 9379, 9380, 9381, 9382, 9383, 9384, 9385, 9386, 9387, 9388, 9389, 9390,
    9391, 9393, 9395, 9396, 9398, 9399, 9400, 9401, 9402]]

/-- Actions of each state (drel_ast_yacc.py 582), states 48 to 63. -/
def actionRows3 : List (List Nat) := [
  [9473, 9474, 9475, 9476, 9477, 9478, 9479, 9480, 9481, 9482, 9483, 9484, 9485, 9486, 9487, 9488, 9489, 9490, 9491, 9492, 9493, 9494, 9495,
    9496, 9497, 9498, 9499, 9500, 9501, 9502, 9503, 9504, 9505, 9506, 9507, 9508, 9509, 9510, 9511, 9512, 9513, 9514, 9515, 9516, 9517, 9518,
    9519, 9521, 9523, 9524, 9526, 9527, 9528, 9529, 9530],
  [15077, 15206],
  [9857, 9858, 9859, 9860, 9861, 9862, 9863, 9864, 9865, 9866, 9867, 9868, 9869, 9870, 9871, 9872, 9873, 9874, 9875, 9876, 9877, 9878, 9879,
    9880, 9881, 9882, 9883, 9884, 9885, 9886, 9887, 9888, 9889, 9890, 9891, 9892, 9893, 9894, 9895, 9896, 9897, 9898, 9899, 9900, 9901, 9902,
    9903, 9905, 9907, 9908, 9910, 9911, 9912, 9913, 9914],
  [9985, 9986, 9987, 9988, 9989, 9990, 9991, 9992, 9993, 9994, 9995, 9996, 9997, 9998, 9999, 10000, 10001, 10002, 10003, 10004, 10005, 10006,
    10007, 10008, 10009, 10010, 10011, 10012, 10013, 10014, 10015, 10016, 10017, 10018, 10019, 10020, 10021, 10022, 10023, 10024, 10025, 10026,
    10027, 10028, 10029, 10030, 10031, 10033, 10035, 10036, 10038, 10039, 10040, 10041, 10042],
  [10113, 10114, 10115, 10116, 10117, 10118, 10119, 10120, 10121, 10122, 10123, 10124, 10125, 10126, 10127, 10128, 10129, 10130, 10131, 10132,
    10133, 10134, 10135, 10136, 10137, 10138, 10139, 10140, 10141, 10142, 10143, 10144, 10145, 10146, 10147, 10148, 10149, 10150, 10151, 10152,
    10153, 10154, 10155, 10156, 10157, 10158, 10159, 10161, 10163, 10164, 10166, 10167, 10168, 10169, 10170],
  [10241, 10242, 10243, 10244, 10245, 10246, 10247, 10248, 10249, 10250, 10251, 10252, 10253, 10254, 10255, 10256, 10257, 10258, 10259, 10260,
    10261, 10262, 10263, 10264, 10265, 10266, 10267, 10268, 10269, 10270, 10271, 10272, 10273, 10274, 10275, 10276, 10277, 10278, 10279, 10280,
    10281, 10282, 10283, 10284, 10285, 10286, 10287, 10289, 10291, 10292, 10294, 10295, 10296, 10297, 10298],
  [10369, 10370, 10371, 10372, 10373, 10374, 10375, 10376, 10377, 10378, 10379, 10380, 10381, 10382, 10383, 10384, 10385, 10386, 10387, 10388,
    10389, 10390, 10391, 10392, 10393, 10394, 10395, 10396, 10397, 10398, 10399, 10400, 10401, 10402, 10403, 10404, 10405, 10406, 10407, 10408,
    10409, 10410, 10411, 10412, 10413, 10414, 10415, 10417, 10419, 10420, 10422, 10423, 10424, 10425, 10426],
  [10497, 10498, 10499, 10500, 10501, 10502, 10503, 10504, 10505, 10506, 10507, 10508, 10509, 10510, 10511, 10512, 10513, 10514, 10515, 10516,
    10517, 10518, 10519, 10520, 10521, 10522, 10523, 10524, 10525, 10526, 10527, 10528, 10529, 10530, 10531, 10532, 10533, 10534, 10535, 10536,
    10537, 10538, 10539, 10540, 10541, 10542, 10543, 10545, 10547, 10548, 10550, 10551, 10552, 10553, 10554],
  [3148, 3797, 3924, 5341, 5598, 5727, 5856, 5985, 6114, 6243, 6372, 6501, 6630, 7271, 7401, 7530, 7660, 10716, 15464],
  [3148, 3797, 3924, 5341, 5598, 5727, 5856, 5985, 6114, 6243, 6372, 6501, 6630, 7271, 7401, 7530, 7660, 10716],
  [762, 20364, 20372, 20373, 20380, 20381, 20382, 20383, 20384, 20385, 20386, 20387, 20388, 20389, 20390, 20391, 20393, 20394, 20395, 20396],
  [762, 20388, 20389, 20390, 20397],
  [15984, 16114, 16256, 16258, 16259, 16260, 16268, 16276, 16277, 16284, 16285, 16286, 16287, 16288, 16289, 16290, 16291, 16292, 16293, 16294,
    16295, 16297, 16298, 16300, 16301, 16305, 16307, 16308, 16310, 16311, 16312, 16313],
  [16384, 16386, 16387, 16388, 16396, 16404, 16405, 16412, 16413, 16414, 16415, 16416, 16417, 16418, 16419, 16420, 16421, 16422, 16423, 16425,
    16426, 16428, 16429, 16432, 16433, 16434, 16435, 16436, 16438, 16439, 16440, 16441],
  [16512, 16514, 16515, 16516, 16524, 16532, 16533, 16540, 16541, 16542, 16543, 16544, 16545, 16546, 16547, 16548, 16549, 16550, 16551, 16553,
    16554, 16556, 16557, 16560, 16561, 16562, 16563, 16564, 16566, 16567, 16568, 16569],
  [16640, 16642, 16643, 16644, 16652, 16660, 16661, 16668, 16669, 16670, 16671, 16672, 16673, 16674, 16675, 16676, 16677, 16678, 16679, 16681,
    16682, 16684, 16685, 16688, 16689, 16690, 16691, 16692, 16694, 16695, 16696, 16697]]

/-- Actions of each state (drel_ast_yacc.py 582), states 64 to 79. -/
def actionRows4 : List (List Nat) := [
  [16768, 16770, 16771, 16772, 16780, 16788, 16789, 16796, 16797, 16798, 16799, 16800, 16801, 16802, 16803, 16804, 16805, 16806, 16807, 16809,
    16810, 16812, 16813, 16816, 16817, 16818, 16819, 16820, 16822, 16823, 16824, 16825],
  [16896, 16898, 16899, 16900, 16908, 16916, 16917, 16924, 16925, 16926, 16927, 16928, 16929, 16930, 16931, 16932, 16933, 16934, 16935, 16937,
    16938, 16940, 16941, 16944, 16945, 16946, 16947, 16948, 16950, 16951, 16952, 16953],
  [17024, 17026, 17027, 17028, 17036, 17044, 17045, 17052, 17053, 17054, 17055, 17056, 17057, 17058, 17059, 17060, 17061, 17062, 17063, 17065,
    17066, 17068, 17069, 17072, 17073, 17074, 17075, 17076, 17078, 17079, 17080, 17081],
  [17152, 17154, 17155, 17156, 17164, 17172, 17173, 17180, 17181, 17182, 17183, 17184, 17185, 17186, 17187, 17188, 17189, 17190, 17191, 17193,
    17194, 17196, 17197, 17200, 17201, 17202, 17203, 17204, 17206, 17207, 17208, 17209],
  [16231],
  [16348, 16618],
  [1858, 1987, 2116, 3148, 3797, 3924, 4828, 5341, 5598, 5727, 5856, 5985, 6114, 6243, 6372, 6501, 6630, 7271, 7401, 7530, 8817, 8947, 9204,
    9462, 9591, 9848, 9977, 16748],
  [17116],
  [1858, 1987, 2116, 3148, 3797, 3924, 4828, 5341, 5598, 5727, 5856, 5985, 6114, 6243, 6372, 6501, 6630, 7271, 7401, 7530, 8817, 8947, 9204,
    9462, 9591, 9848, 9977, 16748],
  [17372],
  [1858, 1987, 2116, 3148, 3797, 3924, 4828, 5341, 5598, 5727, 5856, 5985, 6114, 6243, 6372, 6501, 6630, 7271, 7401, 7530, 8817, 8947, 9204,
    9462, 9591, 9848, 9977, 16748],
  [762, 20354, 20355, 20356, 20364, 20372, 20373, 20380, 20381, 20382, 20383, 20384, 20385, 20386, 20387, 20388, 20389, 20390, 20391, 20393,
    20394, 20396, 20401, 20403, 20404, 20406, 20407, 20408, 20409],
  [17756],
  [17884],
  [256, 258, 259, 260, 268, 276, 277, 284, 285, 286, 287, 288, 289, 290, 291, 292, 293, 294, 295, 297, 298, 300, 305, 307, 308, 310, 311, 312,
    313],
  [20224, 20226, 20227, 20228, 20236, 20244, 20245, 20252, 20253, 20254, 20255, 20256, 20257, 20258, 20259, 20260, 20261, 20262, 20263, 20265,
    20266, 20267, 20268, 20269, 20272, 20273, 20274, 20275, 20276, 20278, 20279, 20280, 20281, 20282]]

/-- Actions of each state (drel_ast_yacc.py 582), states 80 to 95. -/
def actionRows5 : List (List Nat) := [
  [512, 514, 515, 516, 524, 532, 533, 540, 541, 542, 543, 544, 545, 546, 547, 548, 549, 550, 551, 553, 554, 556, 557, 560, 561, 562, 563, 564,
    566, 567, 568, 569, 10234],
  [762, 1858, 1987, 2116, 3148, 3797, 3924, 4828, 5341, 5598, 5727, 5856, 5985, 6114, 6243, 6372, 6501, 6630, 7271, 7401, 7530, 7660],
  [2177, 2234],
  [8065, 8066, 8067, 8068, 8069, 8070, 8071, 8072, 8073, 8074, 8075, 8076, 8077, 8078, 8079, 8080, 8081, 8082, 8083, 8084, 8085, 8086, 8087,
    8088, 8089, 8090, 8091, 8092, 8093, 8094, 8095, 8096, 8097, 8098, 8099, 8100, 8101, 8102, 8104, 8105, 8106, 8107, 8108, 8109, 8110, 8111,
    8113, 8115, 8116, 8118, 8119, 8120, 8121, 8122, 18279],
  [3148, 3797, 3924, 5341, 5598, 5727, 5856, 5985, 6114, 6243, 6372, 6501, 6630, 7271, 7401, 7530, 7660, 10716],
  [3148, 3797, 3924, 5341, 5598, 5727, 5856, 5985, 6114, 6243, 6372, 6501, 6630, 7271, 7401, 7530, 7660, 10716],
  [762, 20364, 20372, 20373, 20380, 20381, 20382, 20383, 20384, 20385, 20386, 20387, 20388, 20389, 20390, 20391, 20393, 20394, 20396],
  [3148, 3797, 3924, 5341, 5598, 5727, 5856, 5985, 6114, 6243, 6372, 6501, 6630, 7271, 7401, 7530, 7660, 10716],
  [3148, 3797, 3924, 5341, 5598, 5727, 5856, 5985, 6114, 6243, 6372, 6501, 6630, 7271, 7401, 7530, 7660, 10716],
  [3148, 3797, 3924, 5341, 5598, 5727, 5856, 5985, 6114, 6243, 6372, 6501, 6630, 7271, 7401, 7530, 7660, 10716],
  [3148, 3797, 3924, 5341, 5598, 5727, 5856, 5985, 6114, 6243, 6372, 6501, 6630, 7271, 7401, 7530, 7660, 10716],
  [4097, 4098, 4099, 4100, 4101, 4102, 4103, 4104, 4105, 4106, 4107, 4108, 4116, 4117, 4124, 4125, 4126, 4127, 4128, 4129, 4130, 4131, 4132,
    4133, 4134, 4135, 4136, 4137, 4138, 4139, 4140, 4141, 4142, 4145, 4147, 4148, 4150, 4151, 4152, 4153, 4154],
  [3797, 3924, 5341, 5598, 5727, 5856, 5985, 6114, 6243, 6372, 6501, 6630, 7271, 7401, 7530, 7660, 10716],
  [4500, 4501, 4508, 4509, 4510, 4511, 4512, 4513, 4514, 4515, 4516, 4517, 4518, 4519, 4521, 4522, 4524],
  [4628, 4629, 4636, 4637, 4638, 4639, 4640, 4641, 4642, 4643, 4644, 4645, 4646, 4647, 4649, 4650, 4652],
  [19405]]

/-- Actions of each state (drel_ast_yacc.py 582), states 96 to 111. -/
def actionRows6 : List (List Nat) := [
  [4884, 4885, 4892, 4893, 4894, 4895, 4896, 4897, 4898, 4899, 4900, 4901, 4902, 4903, 4905, 4906, 4908],
  [5012, 5013, 5020, 5021, 5022, 5023, 5024, 5025, 5026, 5027, 5028, 5029, 5030, 5031, 5033, 5034, 5036],
  [5140, 5141, 5148, 5149, 5150, 5151, 5152, 5153, 5154, 5155, 5156, 5157, 5158, 5159, 5161, 5162, 5164],
  [5268, 5269, 5276, 5277, 5278, 5279, 5280, 5281, 5282, 5283, 5284, 5285, 5286, 5287, 5289, 5290, 5292],
  [5396, 5397, 5404, 5405, 5406, 5407, 5408, 5409, 5410, 5411, 5412, 5413, 5414, 5415, 5417, 5418, 5420],
  [5524, 5525, 5532, 5533, 5534, 5535, 5536, 5537, 5538, 5539, 5540, 5541, 5542, 5543, 5545, 5546, 5548],
  [3797, 3924, 5341, 5598, 5727, 5856, 5985, 6114, 6243, 6372, 6501, 6630, 7271, 7401, 7530, 7660, 10716],
  [3797, 3924, 5341, 5598, 5727, 5856, 5985, 6114, 6243, 6372, 6501, 6630, 7271, 7401, 7530, 7660, 10716],
  [3797, 3924, 5341, 5598, 5727, 5856, 5985, 6114, 6243, 6372, 6501, 6630, 7271, 7401, 7530, 7660, 10716],
  [3797, 3924, 5341, 5598, 5727, 5856, 5985, 6114, 6243, 6372, 6501, 6630, 7271, 7401, 7530, 7660, 10716],
  [3797, 3924, 5341, 5598, 5727, 5856, 5985, 6114, 6243, 6372, 6501, 6630, 7271, 7401, 7530, 7660, 10716],
  [3797, 3924, 5341, 5598, 5727, 5856, 5985, 6114, 6243, 6372, 6501, 6630, 7271, 7401, 7530, 7660, 10716],
  [3797, 3924, 5341, 5598, 5727, 5856, 5985, 6114, 6243, 6372, 6501, 6630, 7271, 7401, 7530, 7660, 10716],
  [6913, 6914, 6915, 6916, 6917, 6918, 6919, 6920, 6921, 6922, 6923, 6924, 6925, 6926, 6927, 6928, 6929, 6930, 6931, 6932, 6933, 6934, 6935,
    6936, 6937, 6938, 6940, 6941, 6942, 6943, 6944, 6945, 6946, 6947, 6948, 6949, 6950, 6951, 6952, 6953, 6954, 6955, 6956, 6957, 6958, 6961,
    6963, 6964, 6966, 6967, 6968, 6969, 6970],
  [7041, 7042, 7043, 7044, 7045, 7046, 7047, 7048, 7049, 7050, 7051, 7052, 7053, 7054, 7055, 7056, 7057, 7058, 7059, 7060, 7061, 7062, 7063,
    7064, 7065, 7066, 7068, 7069, 7070, 7071, 7072, 7073, 7074, 7075, 7076, 7077, 7078, 7079, 7080, 7081, 7082, 7083, 7084, 7085, 7086, 7089,
    7091, 7092, 7094, 7095, 7096, 7097, 7098],
  [3797, 3924, 5341, 5598, 5727, 5856, 5985, 6114, 6243, 6372, 6501, 6630, 7271, 7401, 7530, 7660, 10716]]

/-- Actions of each state (drel_ast_yacc.py 582), states 112 to 127. -/
def actionRows7 : List (List Nat) := [
  [12545, 12546, 12547, 12548, 12549, 12550, 12551, 12552, 12553, 12554, 12555, 12556, 12557, 12558, 12559, 12560, 12561, 12562, 12563, 12564,
    12565, 12566, 12567, 12568, 12569, 12570, 12571, 12572, 12573, 12574, 12575, 12576, 12577, 12578, 12579, 12580, 12581, 12582, 12583, 12584,
    12585, 12586, 12587, 12588, 12589, 12590, 12591, 12593, 12595, 12596, 12598, 12599, 12600, 12601, 12602],
  [20572],
  [12801, 12802, 12803, 12804, 12805, 12806, 12807, 12808, 12809, 12810, 12811, 12812, 12813, 12814, 12815, 12816, 12817, 12818, 12819, 12820,
    12821, 12822, 12823, 12824, 12825, 12826, 12827, 12828, 12829, 12830, 12831, 12832, 12833, 12834, 12835, 12836, 12837, 12838, 12839, 12840,
    12841, 12842, 12843, 12844, 12845, 12846, 12847, 12849, 12851, 12852, 12854, 12855, 12856, 12857, 12858],
  [3148, 3797, 3924, 5341, 5598, 5727, 5856, 5985, 6114, 6243, 6372, 6501, 6630, 7271, 7401, 7530, 7660, 10716, 21358],
  [3148, 3797, 3924, 5341, 5598, 5727, 5856, 5985, 6114, 6243, 6372, 6501, 6630, 7271, 7401, 7530, 7660, 10716, 21608, 22255],
  [9601, 9602, 9603, 9604, 9605, 9606, 9607, 9608, 9609, 9610, 9611, 9612, 9613, 9614, 9615, 9616, 9617, 9618, 9619, 9620, 9621, 9622, 9623,
    9624, 9625, 9626, 9627, 9628, 9629, 9630, 9631, 9632, 9633, 9634, 9635, 9636, 9637, 9638, 9639, 9640, 9641, 9642, 9643, 9644, 9645, 9646,
    9647, 9649, 9651, 9652, 9654, 9655, 9656, 9657, 9658],
  [9729, 9730, 9731, 9732, 9733, 9734, 9735, 9736, 9737, 9738, 9739, 9740, 9741, 9742, 9743, 9744, 9745, 9746, 9747, 9748, 9749, 9750, 9751,
    9752, 9753, 9754, 9755, 9756, 9757, 9758, 9759, 9760, 9761, 9762, 9763, 9764, 9765, 9766, 9767, 9768, 9769, 9770, 9771, 9772, 9773, 9774,
    9775, 9777, 9779, 9780, 9782, 9783, 9784, 9785, 9786],
  [11079, 22376],
  [10753, 10754, 10755, 10756, 10757, 10758, 10759, 10760, 10761, 10762, 10763, 10764, 10765, 10766, 10767, 10768, 10769, 10770, 10771, 10772,
    10773, 10774, 10775, 10776, 10777, 10778, 10779, 10780, 10781, 10782, 10783, 10784, 10785, 10786, 10787, 10788, 10789, 10790, 10791, 10792,
    10793, 10794, 10795, 10796, 10797, 10798, 10799, 10801, 10803, 10804, 10806, 10807, 10808, 10809, 10810],
  [11079, 22505],
  [3148, 3797, 3924, 5341, 5598, 5727, 5856, 5985, 6114, 6243, 6372, 6501, 6630, 7271, 7401, 7530, 7660, 10716, 22763],
  [6372, 6501, 6630, 23149],
  [1858, 1987, 2116, 3148, 3797, 3924, 4828, 5341, 5598, 5727, 5856, 5985, 6114, 6243, 6372, 6501, 6630, 7271, 7401, 7530, 8817, 8947, 9204,
    9462, 9591, 9848, 9977, 16748],
  [23527],
  [3148, 3797, 3924, 5341, 5598, 5727, 5856, 5985, 6114, 6243, 6372, 6501, 6630, 7271, 7401, 7530, 7660, 10716],
  [16007, 16013, 16043]]

/-- Actions of each state (drel_ast_yacc.py 582), states 128 to 143. -/
def actionRows8 : List (List Nat) := [
  [23751, 23885],
  [16348],
  [762, 20354, 20355, 20356, 20364, 20372, 20373, 20380, 20381, 20382, 20383, 20384, 20385, 20386, 20387, 20388, 20389, 20390, 20391, 20393,
    20394, 20396, 20397, 20401, 20403, 20404, 20406, 20407, 20408, 20409],
  [17664, 17666, 17667, 17668, 17676, 17684, 17685, 17692, 17693, 17694, 17695, 17696, 17697, 17698, 17699, 17700, 17701, 17702, 17703, 17705,
    17706, 17708, 17709, 17712, 17713, 17714, 17715, 17716, 17718, 17719, 17720, 17721],
  [18176, 18178, 18179, 18180, 18188, 18196, 18197, 18204, 18205, 18206, 18207, 18208, 18209, 18210, 18211, 18212, 18213, 18214, 18215, 18217,
    18218, 18220, 18221, 18224, 18225, 18226, 18227, 18228, 18230, 18231, 18232, 18233],
  [24309],
  [18688, 18690, 18691, 18692, 18700, 18708, 18709, 18716, 18717, 18718, 18719, 18720, 18721, 18722, 18723, 18724, 18725, 18726, 18727, 18729,
    18730, 18732, 18733, 18736, 18737, 18738, 18739, 18740, 18742, 18743, 18744, 18745],
  [24390],
  [19072, 19074, 19075, 19076, 19084, 19092, 19093, 19100, 19101, 19102, 19103, 19104, 19105, 19106, 19107, 19108, 19109, 19110, 19111, 19113,
    19114, 19116, 19117, 19120, 19121, 19122, 19123, 19124, 19126, 19127, 19128, 19129],
  [1858, 1987, 2116, 3148, 3797, 3924, 4828, 5341, 5598, 5727, 5856, 5985, 6114, 6243, 6372, 6501, 6630, 7271, 7401, 7530, 8817, 8947, 9204,
    9462, 9591, 9848, 9977, 16748],
  [24693],
  [24807],
  [640, 642, 643, 644, 652, 660, 661, 668, 669, 670, 671, 672, 673, 674, 675, 676, 677, 678, 679, 681, 682, 684, 685, 688, 689, 690, 691, 692,
    694, 695, 696, 697, 10234],
  [1025, 1082],
  [3148, 3797, 3924, 5341, 5598, 5727, 5856, 5985, 6114, 6243, 6372, 6501, 6630, 7271, 7401, 7530, 7660, 10716, 21608],
  [2433, 2490, 11079]]

/-- Actions of each state (drel_ast_yacc.py 582), states 144 to 159. -/
def actionRows9 : List (List Nat) := [
  [2561, 2618, 11079],
  [3148, 3797, 3924, 5341, 5598, 5727, 5856, 5985, 6114, 6243, 6372, 6501, 6630, 7271, 7401, 7530, 7660, 10716],
  [3329, 3330, 3331, 3332, 3333, 3334, 3335, 3336, 3337, 3340, 3348, 3349, 3356, 3357, 3358, 3359, 3360, 3361, 3362, 3363, 3364, 3365, 3366,
    3367, 3368, 3369, 3370, 3371, 3372, 3373, 3374, 3377, 3379, 3380, 3382, 3383, 3384, 3385, 3386, 11466, 11595],
  [3457, 3458, 3459, 3460, 3461, 3462, 3463, 3464, 3465, 3468, 3476, 3477, 3484, 3485, 3486, 3487, 3488, 3489, 3490, 3491, 3492, 3493, 3494,
    3495, 3496, 3497, 3498, 3499, 3500, 3501, 3502, 3505, 3507, 3508, 3510, 3511, 3512, 3513, 3514, 11466, 11595],
  [3713, 3714, 3715, 3716, 3717, 3718, 3719, 3720, 3721, 3722, 3723, 3724, 3732, 3733, 3740, 3741, 3742, 3743, 3744, 3745, 3746, 3747, 3748,
    3749, 3750, 3751, 3752, 3753, 3754, 3755, 3756, 3757, 3758, 3761, 3763, 3764, 3766, 3767, 3768, 3769, 3770],
  [3841, 3842, 3843, 3844, 3845, 3846, 3847, 3848, 3849, 3850, 3851, 3852, 3860, 3861, 3868, 3869, 3870, 3871, 3872, 3873, 3874, 3875, 3876,
    3877, 3878, 3879, 3880, 3881, 3882, 3883, 3884, 3885, 3886, 3889, 3891, 3892, 3894, 3895, 3896, 3897, 3898],
  [4353, 4354, 4355, 4356, 4357, 4358, 4359, 4360, 4361, 4362, 4363, 4364, 4380, 4381, 4382, 4383, 4384, 4385, 4386, 4387, 4388, 4389, 4390,
    4391, 4392, 4393, 4394, 4395, 4396, 4397, 4398, 4401, 4403, 4404, 4406, 4407, 4408, 4409, 4410, 13140, 13269],
  [4756, 4757, 4764, 4765, 4766, 4767, 4768, 4769, 4770, 4771, 4772, 4773, 4774, 4775, 4777, 4778, 4780],
  [5761, 5762, 5763, 5764, 5765, 5766, 5767, 5768, 5769, 5770, 5771, 5772, 5773, 5774, 5775, 5776, 5777, 5778, 5779, 5780, 5781, 5788, 5789,
    5790, 5791, 5792, 5793, 5794, 5795, 5796, 5797, 5798, 5799, 5800, 5801, 5802, 5803, 5804, 5805, 5806, 5809, 5811, 5812, 5814, 5815, 5816,
    5817, 5818, 13398, 13527, 13656, 13785, 13914],
  [5889, 5890, 5891, 5892, 5893, 5894, 5895, 5896, 5897, 5898, 5899, 5900, 5901, 5902, 5903, 5904, 5905, 5906, 5907, 5908, 5909, 5916, 5917,
    5918, 5919, 5920, 5921, 5922, 5923, 5924, 5925, 5926, 5927, 5928, 5929, 5930, 5931, 5932, 5933, 5934, 5937, 5939, 5940, 5942, 5943, 5944,
    5945, 5946, 13398, 13527, 13656, 13785, 13914],
  [6145, 6146, 6147, 6148, 6149, 6150, 6151, 6152, 6153, 6154, 6155, 6156, 6157, 6158, 6159, 6160, 6161, 6162, 6163, 6164, 6165, 6166, 6167,
    6168, 6169, 6170, 6172, 6173, 6174, 6175, 6176, 6177, 6178, 6179, 6180, 6181, 6182, 6183, 6184, 6185, 6186, 6187, 6188, 6189, 6190, 6193,
    6195, 6196, 6198, 6199, 6200, 6201, 6202],
  [6273, 6274, 6275, 6276, 6277, 6278, 6279, 6280, 6281, 6282, 6283, 6284, 6285, 6286, 6287, 6288, 6289, 6290, 6291, 6292, 6293, 6294, 6295,
    6296, 6297, 6298, 6300, 6301, 6302, 6303, 6304, 6305, 6306, 6307, 6308, 6309, 6310, 6311, 6312, 6313, 6314, 6315, 6316, 6317, 6318, 6321,
    6323, 6324, 6326, 6327, 6328, 6329, 6330],
  [6401, 6402, 6403, 6404, 6405, 6406, 6407, 6408, 6409, 6410, 6411, 6412, 6413, 6414, 6415, 6416, 6417, 6418, 6419, 6420, 6421, 6422, 6423,
    6424, 6425, 6426, 6428, 6429, 6430, 6431, 6432, 6433, 6434, 6435, 6436, 6437, 6438, 6439, 6440, 6441, 6442, 6443, 6444, 6445, 6446, 6449,
    6451, 6452, 6454, 6455, 6456, 6457, 6458],
  [6529, 6530, 6531, 6532, 6533, 6534, 6535, 6536, 6537, 6538, 6539, 6540, 6541, 6542, 6543, 6544, 6545, 6546, 6547, 6548, 6549, 6550, 6551,
    6552, 6553, 6554, 6556, 6557, 6558, 6559, 6560, 6561, 6562, 6563, 6564, 6565, 6566, 6567, 6568, 6569, 6570, 6571, 6572, 6573, 6574, 6577,
    6579, 6580, 6582, 6583, 6584, 6585, 6586],
  [6657, 6658, 6659, 6660, 6661, 6662, 6663, 6664, 6665, 6666, 6667, 6668, 6669, 6670, 6671, 6672, 6673, 6674, 6675, 6676, 6677, 6678, 6679,
    6680, 6681, 6682, 6684, 6685, 6686, 6687, 6688, 6689, 6690, 6691, 6692, 6693, 6694, 6695, 6696, 6697, 6698, 6699, 6700, 6701, 6702, 6705,
    6707, 6708, 6710, 6711, 6712, 6713, 6714],
  [7297, 7298, 7299, 7300, 7301, 7302, 7303, 7304, 7305, 7306, 7307, 7308, 7309, 7310, 7311, 7312, 7313, 7314, 7315, 7316, 7317, 7318, 7319,
    7320, 7321, 7322, 7324, 7325, 7326, 7327, 7328, 7329, 7330, 7331, 7332, 7333, 7334, 7335, 7336, 7337, 7338, 7339, 7340, 7341, 7342, 7345,
    7347, 7348, 7350, 7351, 7352, 7353, 7354]]

/-- Actions of each state (drel_ast_yacc.py 582), states 160 to 175. -/
def actionRows10 : List (List Nat) := [
  [12673, 12674, 12675, 12676, 12677, 12678, 12679, 12680, 12681, 12682, 12683, 12684, 12685, 12686, 12687, 12688, 12689, 12690, 12691, 12692,
    12693, 12694, 12695, 12696, 12697, 12698, 12699, 12700, 12701, 12702, 12703, 12704, 12705, 12706, 12707, 12708, 12709, 12710, 12711, 12712,
    12713, 12714, 12715, 12716, 12717, 12718, 12719, 12721, 12723, 12724, 12726, 12727, 12728, 12729, 12730],
  [14471, 25067, 25198],
  [14599, 25323],
  [25451, 25543],
  [13319, 13355, 25710],
  [13447, 13483],
  [3148, 3797, 3924, 5341, 5598, 5727, 5856, 5985, 6114, 6243, 6372, 6501, 6630, 7271, 7401, 7530, 7660, 10716, 13575, 13611, 13614],
  [14215, 14251],
  [14721, 14722, 14723, 14724, 14725, 14726, 14727, 14728, 14729, 14730, 14731, 14732, 14733, 14734, 14735, 14736, 14737, 14738, 14739, 14740,
    14741, 14742, 14743, 14744, 14745, 14746, 14747, 14748, 14749, 14750, 14751, 14752, 14753, 14754, 14755, 14756, 14757, 14758, 14759, 14760,
    14761, 14762, 14763, 14764, 14765, 14766, 14767, 14769, 14771, 14772, 14774, 14775, 14776, 14777, 14778],
  [25960, 26055],
  [14983, 15016],
  [15239, 15272],
  [26216, 26311],
  [26460],
  [10625, 10626, 10627, 10628, 10629, 10630, 10631, 10632, 10633, 10634, 10635, 10636, 10637, 10638, 10639, 10640, 10641, 10642, 10643, 10644,
    10645, 10646, 10647, 10648, 10649, 10650, 10651, 10652, 10653, 10654, 10655, 10656, 10657, 10658, 10659, 10660, 10661, 10662, 10663, 10664,
    10665, 10666, 10667, 10668, 10669, 10670, 10671, 10673, 10675, 10676, 10678, 10679, 10680, 10681, 10682],
  [10881, 10882, 10883, 10884, 10885, 10886, 10887, 10888, 10889, 10890, 10891, 10892, 10893, 10894, 10895, 10896, 10897, 10898, 10899, 10900,
    10901, 10902, 10903, 10904, 10905, 10906, 10907, 10908, 10909, 10910, 10911, 10912, 10913, 10914, 10915, 10916, 10917, 10918, 10919, 10920,
    10921, 10922, 10923, 10924, 10925, 10926, 10927, 10929, 10931, 10932, 10934, 10935, 10936, 10937, 10938]]

/-- Actions of each state (drel_ast_yacc.py 582), states 176 to 191. -/
def actionRows11 : List (List Nat) := [
  [762, 20395],
  [11137, 11138, 11139, 11140, 11141, 11142, 11143, 11144, 11145, 11146, 11147, 11148, 11149, 11150, 11151, 11152, 11153, 11154, 11155, 11156,
    11157, 11158, 11159, 11160, 11161, 11162, 11163, 11164, 11165, 11166, 11167, 11168, 11169, 11170, 11171, 11172, 11173, 11174, 11175, 11176,
    11177, 11178, 11179, 11180, 11181, 11182, 11183, 11185, 11187, 11188, 11190, 11191, 11192, 11193, 11194],
  [11691, 11706, 26823],
  [762, 20397],
  [11905, 11906, 11907, 11908, 11909, 11910, 11911, 11912, 11913, 11914, 11915, 11916, 11917, 11918, 11919, 11920, 11921, 11922, 11923, 11924,
    11925, 11926, 11927, 11928, 11929, 11930, 11931, 11932, 11933, 11934, 11935, 11936, 11937, 11938, 11939, 11940, 11941, 11942, 11943, 11944,
    11945, 11946, 11947, 11948, 11949, 11950, 11951, 11953, 11955, 11956, 11958, 11959, 11960, 11961, 11962],
  [27118],
  [17280, 17282, 17283, 17284, 17292, 17300, 17301, 17308, 17309, 17310, 17311, 17312, 17313, 17314, 17315, 17316, 17317, 17318, 17319, 17321,
    17322, 17324, 17325, 17328, 17329, 17330, 17331, 17332, 17334, 17335, 17336, 17337],
  [3148, 3797, 3924, 5341, 5598, 5727, 5856, 5985, 6114, 6243, 6372, 6501, 6630, 7271, 7401, 7530, 7660, 10716],
  [27368],
  [27484],
  [3148, 3797, 3924, 5341, 5598, 5727, 5856, 5985, 6114, 6243, 6372, 6501, 6630, 7271, 7401, 7530, 7660, 10716],
  [23751, 27755],
  [1858, 1987, 2116, 3148, 3797, 3924, 4828, 5341, 5598, 5727, 5856, 5985, 6114, 6243, 6372, 6501, 6630, 7271, 7401, 7530, 7660, 8817, 8947,
    9204, 9462, 9591, 9848, 9977, 23149],
  [28252],
  [3148, 3797, 3924, 5341, 5598, 5727, 5856, 5985, 6114, 6243, 6372, 6501, 6630, 7271, 7401, 7530, 7660, 10716],
  [19200, 19202, 19203, 19204, 19212, 19220, 19221, 19228, 19229, 19230, 19231, 19232, 19233, 19234, 19235, 19236, 19237, 19238, 19239, 19241,
    19242, 19244, 19245, 19248, 19249, 19250, 19251, 19252, 19254, 19255, 19256, 19257]]

/-- Actions of each state (drel_ast_yacc.py 582), states 192 to 207. -/
def actionRows12 : List (List Nat) := [
  [28508],
  [28764],
  [2945, 2946, 2947, 2948, 2949, 2950, 2951, 2956, 2964, 2965, 2972, 2973, 2974, 2975, 2976, 2977, 2978, 2979, 2980, 2981, 2982, 2983, 2984,
    2985, 2986, 2988, 2993, 2995, 2996, 2998, 2999, 3000, 3001, 3002],
  [12929, 12930, 12931, 12932, 12933, 12934, 12935, 12936, 12937, 12938, 12939, 12940, 12941, 12942, 12943, 12944, 12945, 12946, 12947, 12948,
    12949, 12950, 12951, 12952, 12953, 12954, 12955, 12956, 12957, 12958, 12959, 12960, 12961, 12962, 12963, 12964, 12965, 12966, 12967, 12968,
    12969, 12970, 12971, 12972, 12973, 12974, 12975, 12977, 12979, 12980, 12982, 12983, 12984, 12985, 12986],
  [3148, 3797, 3924, 5341, 5598, 5727, 5856, 5985, 6114, 6243, 6372, 6501, 6630, 7271, 7401, 7530, 7660, 10716, 13959, 13995, 13998],
  [13057, 13058, 13059, 13060, 13061, 13062, 13063, 13064, 13065, 13066, 13067, 13068, 13069, 13070, 13071, 13072, 13073, 13074, 13075, 13076,
    13077, 13078, 13079, 13080, 13081, 13082, 13083, 13084, 13085, 13086, 13087, 13088, 13089, 13090, 13091, 13092, 13093, 13094, 13095, 13096,
    13097, 13098, 13099, 13100, 13101, 13102, 13103, 13105, 13107, 13108, 13110, 13111, 13112, 13113, 13114],
  [13185, 13186, 13187, 13188, 13189, 13190, 13191, 13192, 13193, 13194, 13195, 13196, 13197, 13198, 13199, 13200, 13201, 13202, 13203, 13204,
    13205, 13206, 13207, 13208, 13209, 13210, 13211, 13212, 13213, 13214, 13215, 13216, 13217, 13218, 13219, 13220, 13221, 13222, 13223, 13224,
    13225, 13226, 13227, 13228, 13229, 13230, 13231, 13233, 13235, 13236, 13238, 13239, 13240, 13241, 13242],
  [3148, 3797, 3924, 5341, 5598, 5727, 5856, 5985, 6114, 6243, 6372, 6501, 6630, 7271, 7401, 7530, 7660, 10716, 21358],
  [3148, 3797, 3924, 5341, 5598, 5727, 5856, 5985, 6114, 6243, 6372, 6501, 6630, 7271, 7401, 7530, 7660, 10716],
  [13831, 13867, 13870],
  [14849, 14850, 14851, 14852, 14853, 14854, 14855, 14856, 14857, 14858, 14859, 14860, 14861, 14862, 14863, 14864, 14865, 14866, 14867, 14868,
    14869, 14870, 14871, 14872, 14873, 14874, 14875, 14876, 14877, 14878, 14879, 14880, 14881, 14882, 14883, 14884, 14885, 14886, 14887, 14888,
    14889, 14890, 14891, 14892, 14893, 14894, 14895, 14897, 14899, 14900, 14902, 14903, 14904, 14905, 14906],
  [3148, 3797, 3924, 5341, 5598, 5727, 5856, 5985, 6114, 6243, 6372, 6501, 6630, 7271, 7401, 7530, 7660, 10716],
  [15361, 15418],
  [29679],
  [29766],
  [29931]]

/-- Actions of each state (drel_ast_yacc.py 582), states 208 to 223. -/
def actionRows13 : List (List Nat) := [
  [11307, 11322, 30023],
  [762, 20364, 20372, 20373, 20380, 20381, 20382, 20383, 20384, 20385, 20386, 20387, 20388, 20389, 20390, 20391, 20393, 20394, 20396],
  [30317],
  [3148, 3797, 3924, 5341, 5598, 5727, 5856, 5985, 6114, 6243, 6372, 6501, 6630, 7271, 7401, 7530, 7660, 10716],
  [30568],
  [762, 20354, 20355, 20356, 20364, 20372, 20373, 20380, 20381, 20382, 20383, 20384, 20385, 20386, 20387, 20388, 20389, 20390, 20391, 20393,
    20394, 20396, 20401, 20403, 20404, 20406, 20407, 20408, 20409],
  [16135, 16141, 16171],
  [1858, 1987, 2116, 3148, 3797, 3924, 4828, 5341, 5598, 5727, 5856, 5985, 6114, 6243, 6372, 6501, 6630, 7271, 7401, 7530, 8817, 8947, 9204,
    9462, 9591, 9848, 9977, 11079, 16748],
  [30925],
  [1154, 1155, 1156, 1164, 1172, 1173, 1180, 1181, 1182, 1183, 1184, 1185, 1186, 1187, 1188, 1189, 1190, 1191, 1193, 1194, 1196, 1197, 1201,
    1203, 1204, 1206, 1207, 1208, 1209],
  [1858, 1987, 2116, 3148, 3797, 3924, 4828, 5341, 5598, 5727, 5856, 5985, 6114, 6243, 6372, 6501, 6630, 7271, 7401, 7530, 7660, 8817, 8947,
    9204, 9462, 9591, 9848, 9977, 31213],
  [8705, 8709, 8710, 8711, 8712, 8713, 8714, 8715, 8716, 8717, 8718, 8719, 8720, 8721, 8722, 8723, 8724, 8725, 8726, 8727, 8728, 8729, 8730,
    8731, 8738, 8746, 8751, 8762, 27118],
  [18306, 18307, 18308, 18316, 18324, 18325, 18332, 18333, 18334, 18335, 18336, 18337, 18338, 18339, 18340, 18341, 18342, 18343, 18345, 18346,
    18348, 18353, 18355, 18356, 18358, 18359, 18360, 18361, 31342],
  [31431],
  [19330, 19331, 19332, 19340, 19348, 19349, 19356, 19357, 19358, 19359, 19360, 19361, 19362, 19363, 19364, 19365, 19366, 19367, 19369, 19370,
    19372, 19377, 19379, 19380, 19382, 19383, 19384, 19385, 19386],
  [31592, 31687]]

/-- Actions of each state (drel_ast_yacc.py 582), states 224 to 239. -/
def actionRows14 : List (List Nat) := [
  [31854],
  [13703, 13739, 13742],
  [14471, 14507, 25198],
  [14343, 14379],
  [14599, 14635],
  [14087, 14123],
  [15111, 15144],
  [31964],
  [3148, 3797, 3924, 5341, 5598, 5727, 5856, 5985, 6114, 6243, 6372, 6501, 6630, 7271, 7401, 7530, 7660, 10716],
  [11009, 11010, 11011, 11012, 11013, 11014, 11015, 11016, 11017, 11018, 11019, 11020, 11021, 11022, 11023, 11024, 11025, 11026, 11027, 11028,
    11029, 11030, 11031, 11032, 11033, 11034, 11035, 11036, 11037, 11038, 11039, 11040, 11041, 11042, 11043, 11044, 11045, 11046, 11047, 11048,
    11049, 11050, 11051, 11052, 11053, 11054, 11055, 11057, 11059, 11060, 11062, 11063, 11064, 11065, 11066],
  [762, 20364, 20372, 20373, 20380, 20381, 20382, 20383, 20384, 20385, 20386, 20387, 20388, 20389, 20390, 20391, 20393, 20394, 20396],
  [3148, 3797, 3924, 5341, 5598, 5727, 5856, 5985, 6114, 6243, 6372, 6501, 6630, 7271, 7401, 7530, 7660, 10716],
  [11777, 11778, 11779, 11780, 11781, 11782, 11783, 11784, 11785, 11786, 11787, 11788, 11789, 11790, 11791, 11792, 11793, 11794, 11795, 11796,
    11797, 11798, 11799, 11800, 11801, 11802, 11803, 11804, 11805, 11806, 11807, 11808, 11809, 11810, 11811, 11812, 11813, 11814, 11815, 11816,
    11817, 11818, 11819, 11820, 11821, 11822, 11823, 11825, 11827, 11828, 11830, 11831, 11832, 11833, 11834],
  [12461, 12474, 32583],
  [762, 20354, 20355, 20356, 20364, 20372, 20373, 20380, 20381, 20382, 20383, 20384, 20385, 20386, 20387, 20388, 20389, 20390, 20391, 20393,
    20394, 20396, 20401, 20403, 20404, 20406, 20407, 20408, 20409],
  [1858, 1987, 2116, 3148, 3797, 3924, 4828, 5341, 5598, 5727, 5856, 5985, 6114, 6243, 6372, 6501, 6630, 7271, 7401, 7530, 8817, 8947, 9204,
    9462, 9591, 9848, 9977, 16748]]

/-- Actions of each state (drel_ast_yacc.py 582), states 240 to 255. -/
def actionRows15 : List (List Nat) := [
  [17920, 17922, 17923, 17924, 17932, 17940, 17941, 17948, 17949, 17950, 17951, 17952, 17953, 17954, 17955, 17956, 17957, 17958, 17959, 17961,
    17962, 17964, 17965, 17968, 17969, 17970, 17971, 17972, 17974, 17975, 17976, 17977],
  [3148, 3797, 3924, 5341, 5598, 5727, 5856, 5985, 6114, 6243, 6372, 6501, 6630, 7271, 7401, 7530, 7660, 10716],
  [1282, 1283, 1284, 1292, 1300, 1301, 1308, 1309, 1310, 1311, 1312, 1313, 1314, 1315, 1316, 1317, 1318, 1319, 1321, 1322, 1324, 1325, 1329,
    1331, 1332, 1334, 1335, 1336, 1337],
  [762, 20352, 20354, 20355, 20356, 20364, 20372, 20373, 20380, 20381, 20382, 20383, 20384, 20385, 20386, 20387, 20388, 20389, 20390, 20391,
    20393, 20394, 20396, 20397, 20400, 20401, 20402, 20403, 20404, 20406, 20407, 20408, 20409],
  [33244],
  [3148, 3797, 3924, 5341, 5598, 5727, 5856, 5985, 6114, 6243, 6372, 6501, 6630, 7271, 7401, 7530, 7660, 10716],
  [1858, 1987, 2116, 3148, 3797, 3924, 4828, 5341, 5598, 5727, 5856, 5985, 6114, 6243, 6372, 6501, 6630, 7271, 7401, 7530, 8817, 8947, 9204,
    9462, 9591, 9848, 9977, 16748],
  [33628],
  [7530],
  [33862],
  [15495, 15528],
  [3148, 3797, 3924, 5341, 5598, 5727, 5856, 5985, 6114, 6243, 6372, 6501, 6630, 7271, 7401, 7530, 7660, 10716],
  [11399, 11435, 11450],
  [12077, 12090, 34119],
  [762, 20388, 20389, 20390],
  [1858, 1987, 2116, 3148, 3797, 3924, 4828, 5341, 5598, 5727, 5856, 5985, 6114, 6243, 6372, 6501, 6630, 7271, 7401, 7530, 8817, 8947, 9204,
    9462, 9591, 9848, 9977, 16748]]

/-- Actions of each state (drel_ast_yacc.py 582), states 256 to 271. -/
def actionRows16 : List (List Nat) := [
  [17408, 17410, 17411, 17412, 17420, 17428, 17429, 17436, 17437, 17438, 17439, 17440, 17441, 17442, 17443, 17444, 17445, 17446, 17447, 17449,
    17450, 17452, 17453, 17456, 17457, 17458, 17459, 17460, 17462, 17463, 17464, 17465],
  [1858, 1987, 2116, 3148, 3797, 3924, 4828, 5341, 5598, 5727, 5856, 5985, 6114, 6243, 6372, 6501, 6630, 7271, 7401, 7530, 8817, 8947, 9204,
    9462, 9591, 9848, 9977, 11079, 16748],
  [17792, 17794, 17795, 17796, 17804, 17812, 17813, 17820, 17821, 17822, 17823, 17824, 17825, 17826, 17827, 17828, 17829, 17830, 17831, 17833,
    17834, 17836, 17837, 17840, 17841, 17842, 17843, 17844, 17846, 17847, 17848, 17849],
  [12366, 12495, 12624, 12753, 12882, 13011, 18434, 18435, 18436, 18444, 18452, 18453, 18460, 18461, 18462, 18463, 18464, 18465, 18466, 18467,
    18468, 18469, 18470, 18471, 18473, 18474, 18476, 18481, 18483, 18484, 18486, 18487, 18488, 18489],
  [18818, 18819, 18820, 18828, 18836, 18837, 18844, 18845, 18846, 18847, 18848, 18849, 18850, 18851, 18852, 18853, 18854, 18855, 18857, 18858,
    18860, 18865, 18867, 18868, 18870, 18871, 18872, 18873, 34759],
  [19456, 19458, 19459, 19460, 19468, 19476, 19477, 19484, 19485, 19486, 19487, 19488, 19489, 19490, 19491, 19492, 19493, 19494, 19495, 19497,
    19498, 19500, 19501, 19504, 19505, 19506, 19507, 19508, 19510, 19511, 19512, 19513],
  [34926],
  [19591, 19624],
  [3148, 3797, 3924, 5341, 5598, 5727, 5856, 5985, 6114, 6243, 6372, 6501, 6630, 7271, 7401, 7530, 7660, 10716],
  [11527, 11563, 11578],
  [762, 20388, 20389, 20390],
  [6372, 6501, 6630],
  [17536, 17538, 17539, 17540, 17548, 17556, 17557, 17564, 17565, 17566, 17567, 17568, 17569, 17570, 17571, 17572, 17573, 17574, 17575, 17577,
    17578, 17580, 17581, 17584, 17585, 17586, 17587, 17588, 17590, 17591, 17592, 17593],
  [18048, 18050, 18051, 18052, 18060, 18068, 18069, 18076, 18077, 18078, 18079, 18080, 18081, 18082, 18083, 18084, 18085, 18086, 18087, 18089,
    18090, 18092, 18093, 18096, 18097, 18098, 18099, 18100, 18102, 18103, 18104, 18105],
  [35420],
  [3148, 3797, 3924, 5341, 5598, 5727, 5856, 5985, 6114, 6243, 6372, 6501, 6630, 7271, 7401, 7530, 7660, 10716]]

/-- Actions of each state (drel_ast_yacc.py 582), states 272 to 283. -/
def actionRows17 : List (List Nat) := [
  [7530],
  [15623, 15656],
  [6372, 6501, 6630],
  [35950],
  [18562, 18563, 18564, 18572, 18580, 18581, 18588, 18589, 18590, 18591, 18592, 18593, 18594, 18595, 18596, 18597, 18598, 18599, 18601, 18602,
    18604, 18609, 18611, 18612, 18614, 18615, 18616, 18617],
  [18946, 18947, 18948, 18956, 18964, 18965, 18972, 18973, 18974, 18975, 18976, 18977, 18978, 18979, 18980, 18981, 18982, 18983, 18985, 18986,
    18988, 18993, 18995, 18996, 18998, 18999, 19000, 19001],
  [19719, 19752],
  [36078],
  [3148, 3797, 3924, 5341, 5598, 5727, 5856, 5985, 6114, 6243, 6372, 6501, 6630, 7271, 7401, 7530, 7660, 10716],
  [3148, 3797, 3924, 5341, 5598, 5727, 5856, 5985, 6114, 6243, 6372, 6501, 6630, 7271, 7401, 7530, 7660, 10716],
  [12167, 12205, 12218],
  [12295, 12333, 12346]]

/-- Actions of each state (drel_ast_yacc.py 582). -/
def actionRows : List (List (List Nat)) := [actionRows0, actionRows1, actionRows2, actionRows3, actionRows4, actionRows5, actionRows6, actionRows7, actionRows8, actionRows9, actionRows10, actionRows11, actionRows12, actionRows13, actionRows14, actionRows15, actionRows16, actionRows17]

/-- States after reductions (drel_ast_yacc.py 582), states 0 to 15. -/
def gotoRows0 : List (List Nat) := [
  [129, 322, 451, 580],
  [770, 899, 1076, 1157, 1289, 1416, 1542, 1671, 2186, 2352, 2443, 2572, 2701, 2830, 2959, 3218, 3347, 3476, 3605, 3990, 4119, 4260, 4390,
    4519, 4653, 4888, 5017, 5147, 5402, 6684, 6813, 6942, 7073, 7734, 7861, 7992, 8123, 8249, 8382, 8509, 8640, 9018, 9276, 9663],
  [899, 1076, 1157, 1289, 1416, 1542, 1671, 2186, 2352, 2443, 2572, 2701, 2830, 2959, 3218, 3347, 3476, 3605, 3990, 4119, 4260, 4390, 4519,
    4653, 4888, 5017, 5147, 5402, 6684, 6813, 6942, 7073, 7734, 7861, 7992, 8123, 8249, 8382, 8509, 8640, 9018, 9276, 9663, 9986],
  [],
  [],
  [],
  [],
  [10307],
  [],
  [],
  [],
  [],
  [],
  [],
  [],
  []]

/-- States after reductions (drel_ast_yacc.py 582), states 16 to 31. -/
def gotoRows1 : List (List Nat) := [
  [2572, 2701, 2830, 2959, 3218, 3347, 3476, 3605, 3990, 4119, 4260, 4390, 4519, 4653, 4888, 5017, 5147, 5402, 6684, 6813, 6942, 7073, 10507],
  [],
  [],
  [],
  [],
  [],
  [],
  [],
  [2959, 3218, 3347, 3476, 3605, 3990, 4119, 4260, 4390, 4519, 4653, 4888, 5017, 5147, 5402, 6684, 6813, 6942, 7073, 11662],
  [11792, 11921],
  [],
  [],
  [],
  [3605, 3990, 4119, 4260, 4390, 4519, 4653, 4888, 5017, 5147, 5402, 6684, 6813, 6942, 7073, 13972],
  [3605, 3990, 4119, 4260, 4390, 4519, 4653, 4888, 5017, 5147, 5402, 6684, 6813, 6942, 7073, 14100],
  [14373]]

/-- States after reductions (drel_ast_yacc.py 582), states 32 to 47. -/
def gotoRows2 : List (List Nat) := [
  [],
  [],
  [],
  [],
  [],
  [],
  [],
  [],
  [],
  [],
  [],
  [],
  [],
  [],
  [],
  []]

/-- States after reductions (drel_ast_yacc.py 582), states 48 to 63. -/
def gotoRows3 : List (List Nat) := [
  [],
  [],
  [],
  [],
  [],
  [],
  [],
  [],
  [2443, 2572, 2701, 2830, 2959, 3218, 3347, 3476, 3605, 3990, 4119, 4260, 4390, 4519, 4653, 4888, 5017, 5147, 5402, 6684, 6813, 6942, 7073,
    15242],
  [2443, 2572, 2701, 2830, 2959, 3218, 3347, 3476, 3605, 3990, 4119, 4260, 4390, 4519, 4653, 4888, 5017, 5147, 5402, 6684, 6813, 6942, 7073,
    15498],
  [451, 580, 15682],
  [451, 580, 15810],
  [],
  [],
  [],
  []]

/-- States after reductions (drel_ast_yacc.py 582), states 64 to 79. -/
def gotoRows4 : List (List Nat) := [
  [],
  [],
  [],
  [],
  [],
  [16435],
  [899, 1076, 1157, 1289, 1416, 1542, 1671, 2186, 2352, 2443, 2572, 2701, 2830, 2959, 3218, 3347, 3476, 3605, 3990, 4119, 4260, 4390, 4519,
    4653, 4888, 5017, 5147, 5402, 6684, 6813, 6942, 7073, 7734, 7861, 7992, 8123, 8249, 8382, 8509, 8640, 9018, 9276, 9663, 16770, 16951],
  [],
  [899, 1076, 1157, 1289, 1416, 1542, 1671, 2186, 2352, 2443, 2572, 2701, 2830, 2959, 3218, 3347, 3476, 3605, 3990, 4119, 4260, 4390, 4519,
    4653, 4888, 5017, 5147, 5402, 6684, 6813, 6942, 7073, 7734, 7861, 7992, 8123, 8249, 8382, 8509, 8640, 9018, 9276, 9663, 16770, 17207],
  [],
  [899, 1076, 1157, 1289, 1416, 1542, 1671, 2186, 2352, 2443, 2572, 2701, 2830, 2959, 3218, 3347, 3476, 3605, 3990, 4119, 4260, 4390, 4519,
    4653, 4888, 5017, 5147, 5402, 6684, 6813, 6942, 7073, 7734, 7861, 7992, 8123, 8249, 8382, 8509, 8640, 9018, 9276, 9663, 16770, 17463],
  [451, 580, 17602],
  [],
  [],
  [],
  []]

/-- States after reductions (drel_ast_yacc.py 582), states 80 to 95. -/
def gotoRows5 : List (List Nat) := [
  [],
  [1289, 1416, 1542, 1671, 2186, 2352, 2443, 2572, 2701, 2830, 2959, 3218, 3347, 3476, 3605, 3990, 4119, 4260, 4390, 4519, 4653, 4888, 5017,
    5147, 5402, 6684, 6813, 6942, 7073, 17987, 18053],
  [],
  [],
  [2443, 2572, 2701, 2830, 2959, 3218, 3347, 3476, 3605, 3990, 4119, 4260, 4390, 4519, 4653, 4888, 5017, 5147, 5402, 6684, 6813, 6942, 7073,
    18314],
  [2443, 2572, 2701, 2830, 2959, 3218, 3347, 3476, 3605, 3990, 4119, 4260, 4390, 4519, 4653, 4888, 5017, 5147, 5402, 6684, 6813, 6942, 7073,
    18442],
  [451, 580, 18626],
  [2830, 2959, 3218, 3347, 3476, 3605, 3990, 4119, 4260, 4390, 4519, 4653, 4888, 5017, 5147, 5402, 6684, 6813, 6942, 7073, 18701],
  [2830, 2959, 3218, 3347, 3476, 3605, 3990, 4119, 4260, 4390, 4519, 4653, 4888, 5017, 5147, 5402, 6684, 6813, 6942, 7073, 18829],
  [2959, 3218, 3347, 3476, 3605, 3990, 4119, 4260, 4390, 4519, 4653, 4888, 5017, 5147, 5402, 6684, 6813, 6942, 7073, 18958],
  [2959, 3218, 3347, 3476, 3605, 3990, 4119, 4260, 4390, 4519, 4653, 4888, 5017, 5147, 5402, 6684, 6813, 6942, 7073, 19086],
  [],
  [3347, 3476, 3605, 3990, 4119, 4260, 4390, 4519, 4653, 4888, 5017, 5147, 5402, 6684, 6813, 6942, 7073, 19218],
  [],
  [],
  []]

/-- States after reductions (drel_ast_yacc.py 582), states 96 to 111. -/
def gotoRows6 : List (List Nat) := [
  [],
  [],
  [],
  [],
  [],
  [],
  [3476, 3605, 3990, 4119, 4260, 4390, 4519, 4653, 4888, 5017, 5147, 5402, 6684, 6813, 6942, 7073, 19475],
  [3476, 3605, 3990, 4119, 4260, 4390, 4519, 4653, 4888, 5017, 5147, 5402, 6684, 6813, 6942, 7073, 19603],
  [3605, 3990, 4119, 4260, 4390, 4519, 4653, 4888, 5017, 5147, 5402, 6684, 6813, 6942, 7073, 19732],
  [3605, 3990, 4119, 4260, 4390, 4519, 4653, 4888, 5017, 5147, 5402, 6684, 6813, 6942, 7073, 19860],
  [3605, 3990, 4119, 4260, 4390, 4519, 4653, 4888, 5017, 5147, 5402, 6684, 6813, 6942, 7073, 19988],
  [3605, 3990, 4119, 4260, 4390, 4519, 4653, 4888, 5017, 5147, 5402, 6684, 6813, 6942, 7073, 20116],
  [3605, 3990, 4119, 4260, 4390, 4519, 4653, 4888, 5017, 5147, 5402, 6684, 6813, 6942, 7073, 20244],
  [],
  [],
  [3605, 3990, 4119, 4260, 4390, 4519, 4653, 4888, 5017, 5147, 5402, 6684, 6813, 6942, 7073, 20372]]

/-- States after reductions (drel_ast_yacc.py 582), states 112 to 127. -/
def gotoRows7 : List (List Nat) := [
  [],
  [],
  [],
  [2572, 2701, 2830, 2959, 3218, 3347, 3476, 3605, 3990, 4119, 4260, 4390, 4519, 4653, 4888, 5017, 5147, 5402, 6684, 6813, 6942, 7073, 20619,
    20776, 20907, 21033, 21162, 21420],
  [2572, 2701, 2830, 2959, 3218, 3347, 3476, 3605, 3990, 4119, 4260, 4390, 4519, 4653, 4888, 5017, 5147, 5402, 6684, 6813, 6942, 7073, 21678,
    21807, 21899, 22065],
  [],
  [],
  [],
  [],
  [],
  [2572, 2701, 2830, 2959, 3218, 3347, 3476, 3605, 3990, 4119, 4260, 4390, 4519, 4653, 4888, 5017, 5147, 5402, 6684, 6813, 6942, 7073, 22559,
    22795],
  [22946, 23194],
  [899, 1076, 1157, 1289, 1416, 1542, 1671, 2186, 2352, 2443, 2572, 2701, 2830, 2959, 3218, 3347, 3476, 3605, 3990, 4119, 4260, 4390, 4519,
    4653, 4888, 5017, 5147, 5402, 6684, 6813, 6942, 7073, 7734, 7861, 7992, 8123, 8249, 8382, 8509, 8640, 9018, 9276, 9663, 16770, 23351],
  [],
  [2572, 2701, 2830, 2959, 3218, 3347, 3476, 3605, 3990, 4119, 4260, 4390, 4519, 4653, 4888, 5017, 5147, 5402, 6684, 6813, 6942, 7073, 23563],
  []]

/-- States after reductions (drel_ast_yacc.py 582), states 128 to 143. -/
def gotoRows8 : List (List Nat) := [
  [],
  [23987],
  [451, 580, 24130],
  [],
  [],
  [],
  [],
  [],
  [],
  [899, 1076, 1157, 1289, 1416, 1542, 1671, 2186, 2352, 2443, 2572, 2701, 2830, 2959, 3218, 3347, 3476, 3605, 3990, 4119, 4260, 4390, 4519,
    4653, 4888, 5017, 5147, 5402, 6684, 6813, 6942, 7073, 7734, 7861, 7992, 8123, 8249, 8382, 8509, 8640, 9018, 9276, 9663, 16770, 24503],
  [],
  [],
  [],
  [],
  [2572, 2701, 2830, 2959, 3218, 3347, 3476, 3605, 3990, 4119, 4260, 4390, 4519, 4653, 4888, 5017, 5147, 5402, 6684, 6813, 6942, 7073, 21678,
    21807, 21899],
  []]

/-- States after reductions (drel_ast_yacc.py 582), states 144 to 159. -/
def gotoRows9 : List (List Nat) := [
  [],
  [2572, 2701, 2830, 2959, 3218, 3347, 3476, 3605, 3990, 4119, 4260, 4390, 4519, 4653, 4888, 5017, 5147, 5402, 6684, 6813, 6942, 7073, 24843],
  [],
  [],
  [],
  [],
  [],
  [],
  [],
  [],
  [],
  [],
  [],
  [],
  [],
  []]

/-- States after reductions (drel_ast_yacc.py 582), states 160 to 175. -/
def gotoRows10 : List (List Nat) := [
  [],
  [],
  [],
  [],
  [],
  [],
  [2572, 2701, 2830, 2959, 3218, 3347, 3476, 3605, 3990, 4119, 4260, 4390, 4519, 4653, 4888, 5017, 5147, 5402, 6684, 6813, 6942, 7073, 25739],
  [],
  [],
  [],
  [],
  [],
  [],
  [],
  [],
  []]

/-- States after reductions (drel_ast_yacc.py 582), states 176 to 191. -/
def gotoRows11 : List (List Nat) := [
  [451, 580, 26562],
  [],
  [26656],
  [451, 580, 26946],
  [],
  [],
  [],
  [2572, 2701, 2830, 2959, 3218, 3347, 3476, 3605, 3990, 4119, 4260, 4390, 4519, 4653, 4888, 5017, 5147, 5402, 6684, 6813, 6942, 7073, 27147],
  [],
  [],
  [2443, 2572, 2701, 2830, 2959, 3218, 3347, 3476, 3605, 3990, 4119, 4260, 4390, 4519, 4653, 4888, 5017, 5147, 5402, 6684, 6813, 6942, 7073,
    27530],
  [],
  [899, 1076, 1157, 1289, 1416, 1542, 1671, 2186, 2352, 2443, 2572, 2701, 2830, 2959, 3218, 3347, 3476, 3605, 3990, 4119, 4260, 4390, 4519,
    4653, 4888, 5017, 5147, 6684, 6813, 6942, 7073, 7734, 7861, 7992, 8123, 8249, 8382, 8509, 8640, 9018, 9276, 9663, 22946, 27778, 27908,
    28058],
  [],
  [2572, 2701, 2830, 2959, 3218, 3347, 3476, 3605, 3990, 4119, 4260, 4390, 4519, 4653, 4888, 5017, 5147, 5402, 6684, 6813, 6942, 7073, 28299],
  []]

/-- States after reductions (drel_ast_yacc.py 582), states 192 to 207. -/
def gotoRows12 : List (List Nat) := [
  [],
  [28609],
  [],
  [],
  [2572, 2701, 2830, 2959, 3218, 3347, 3476, 3605, 3990, 4119, 4260, 4390, 4519, 4653, 4888, 5017, 5147, 5402, 6684, 6813, 6942, 7073, 28811],
  [],
  [],
  [2572, 2701, 2830, 2959, 3218, 3347, 3476, 3605, 3990, 4119, 4260, 4390, 4519, 4653, 4888, 5017, 5147, 5402, 6684, 6813, 6942, 7073, 21033,
    21162, 28939, 29100, 29224],
  [2572, 2701, 2830, 2959, 3218, 3347, 3476, 3605, 3990, 4119, 4260, 4390, 4519, 4653, 4888, 5017, 5147, 5402, 6684, 6813, 6942, 7073, 29323],
  [],
  [],
  [2572, 2701, 2830, 2959, 3218, 3347, 3476, 3605, 3990, 4119, 4260, 4390, 4519, 4653, 4888, 5017, 5147, 5402, 6684, 6813, 6942, 7073, 21899,
    29487],
  [],
  [],
  [],
  []]

/-- States after reductions (drel_ast_yacc.py 582), states 208 to 223. -/
def gotoRows13 : List (List Nat) := [
  [],
  [451, 580, 30146],
  [],
  [2572, 2701, 2830, 2959, 3218, 3347, 3476, 3605, 3990, 4119, 4260, 4390, 4519, 4653, 4888, 5017, 5147, 5402, 6684, 6813, 6942, 7073, 30347],
  [],
  [451, 580, 30658],
  [],
  [899, 1076, 1157, 1289, 1416, 1542, 1671, 2186, 2352, 2443, 2572, 2701, 2830, 2959, 3218, 3347, 3476, 3605, 3990, 4119, 4260, 4390, 4519,
    4653, 4888, 5017, 5147, 5402, 6684, 6813, 6942, 7073, 7734, 7861, 7992, 8123, 8249, 8382, 8509, 8640, 9018, 9276, 9663, 16770, 30775],
  [],
  [],
  [899, 1076, 1157, 1289, 1416, 1542, 1671, 2186, 2352, 2443, 2572, 2701, 2830, 2959, 3218, 3347, 3476, 3605, 3990, 4119, 4260, 4390, 4519,
    4653, 4888, 5017, 5147, 5402, 6684, 6813, 6942, 7073, 7734, 7861, 7992, 8123, 8249, 8382, 8509, 8640, 9018, 9276, 9663, 30978],
  [],
  [],
  [],
  [],
  []]

/-- States after reductions (drel_ast_yacc.py 582), states 224 to 239. -/
def gotoRows14 : List (List Nat) := [
  [],
  [],
  [],
  [],
  [],
  [],
  [],
  [],
  [2572, 2701, 2830, 2959, 3218, 3347, 3476, 3605, 3990, 4119, 4260, 4390, 4519, 4653, 4888, 5017, 5147, 5402, 6684, 6813, 6942, 7073, 32011],
  [],
  [451, 580, 32194],
  [2572, 2701, 2830, 2959, 3218, 3347, 3476, 3605, 3990, 4119, 4260, 4390, 4519, 4653, 4888, 5017, 5147, 5402, 6684, 6813, 6942, 7073, 32267],
  [],
  [32419],
  [451, 580, 32706],
  [899, 1076, 1157, 1289, 1416, 1542, 1671, 2186, 2352, 2443, 2572, 2701, 2830, 2959, 3218, 3347, 3476, 3605, 3990, 4119, 4260, 4390, 4519,
    4653, 4888, 5017, 5147, 5402, 6684, 6813, 6942, 7073, 7734, 7861, 7992, 8123, 8249, 8382, 8509, 8640, 9018, 9276, 9663, 16770, 32823]]

/-- States after reductions (drel_ast_yacc.py 582), states 240 to 255. -/
def gotoRows15 : List (List Nat) := [
  [],
  [2443, 2572, 2701, 2830, 2959, 3218, 3347, 3476, 3605, 3990, 4119, 4260, 4390, 4519, 4653, 4888, 5017, 5147, 5402, 6684, 6813, 6942, 7073,
    32906],
  [],
  [451, 580, 33090],
  [],
  [2572, 2701, 2830, 2959, 3218, 3347, 3476, 3605, 3990, 4119, 4260, 4390, 4519, 4653, 4888, 5017, 5147, 5402, 6684, 6813, 6942, 7073, 33291],
  [899, 1076, 1157, 1289, 1416, 1542, 1671, 2186, 2352, 2443, 2572, 2701, 2830, 2959, 3218, 3347, 3476, 3605, 3990, 4119, 4260, 4390, 4519,
    4653, 4888, 5017, 5147, 5402, 6684, 6813, 6942, 7073, 7734, 7861, 7992, 8123, 8249, 8382, 8509, 8640, 9018, 9276, 9663, 16770, 33463],
  [],
  [33694],
  [],
  [],
  [2572, 2701, 2830, 2959, 3218, 3347, 3476, 3605, 3990, 4119, 4260, 4390, 4519, 4653, 4888, 5017, 5147, 5402, 6684, 6813, 6942, 7073, 33931],
  [],
  [],
  [451, 580, 34242],
  [899, 1076, 1157, 1289, 1416, 1542, 1671, 2186, 2352, 2443, 2572, 2701, 2830, 2959, 3218, 3347, 3476, 3605, 3990, 4119, 4260, 4390, 4519,
    4653, 4888, 5017, 5147, 5402, 6684, 6813, 6942, 7073, 7734, 7861, 7992, 8123, 8249, 8382, 8509, 8640, 9018, 9276, 9663, 16770, 34359]]

/-- States after reductions (drel_ast_yacc.py 582), states 256 to 271. -/
def gotoRows16 : List (List Nat) := [
  [],
  [899, 1076, 1157, 1289, 1416, 1542, 1671, 2186, 2352, 2443, 2572, 2701, 2830, 2959, 3218, 3347, 3476, 3605, 3990, 4119, 4260, 4390, 4519,
    4653, 4888, 5017, 5147, 5402, 6684, 6813, 6942, 7073, 7734, 7861, 7992, 8123, 8249, 8382, 8509, 8640, 9018, 9276, 9663, 16770, 34487],
  [],
  [34577],
  [],
  [],
  [],
  [],
  [2572, 2701, 2830, 2959, 3218, 3347, 3476, 3605, 3990, 4119, 4260, 4390, 4519, 4653, 4888, 5017, 5147, 5402, 6684, 6813, 6942, 7073, 34955],
  [],
  [451, 580, 35138],
  [35226],
  [],
  [],
  [],
  [2572, 2701, 2830, 2959, 3218, 3347, 3476, 3605, 3990, 4119, 4260, 4390, 4519, 4653, 4888, 5017, 5147, 5402, 6684, 6813, 6942, 7073, 35467]]

/-- States after reductions (drel_ast_yacc.py 582), states 272 to 283. -/
def gotoRows17 : List (List Nat) := [
  [35614],
  [],
  [35738],
  [],
  [],
  [],
  [],
  [],
  [2572, 2701, 2830, 2959, 3218, 3347, 3476, 3605, 3990, 4119, 4260, 4390, 4519, 4653, 4888, 5017, 5147, 5402, 6684, 6813, 6942, 7073, 36107],
  [2572, 2701, 2830, 2959, 3218, 3347, 3476, 3605, 3990, 4119, 4260, 4390, 4519, 4653, 4888, 5017, 5147, 5402, 6684, 6813, 6942, 7073, 36235],
  [],
  []]

/-- States after reductions (drel_ast_yacc.py 582). -/
def gotoRows : List (List (List Nat)) := [gotoRows0, gotoRows1, gotoRows2, gotoRows3, gotoRows4, gotoRows5, gotoRows6, gotoRows7, gotoRows8, gotoRows9, gotoRows10, gotoRows11, gotoRows12, gotoRows13, gotoRows14, gotoRows15, gotoRows16, gotoRows17]

/-- The tables (drel_ast_yacc.py 582). -/
def table : LR.Table := ⟨actionRows, gotoRows⟩

end Drel
end Verif
