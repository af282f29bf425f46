import Verif.Model.Serialize
/-! Generated: the uncompressed content of `/repo/timezone/data/prefix_to_timezone.xml.gz`, 18769 bytes, in chunks of 32 bytes (hexadecimal, last byte first). -/
namespace Verif.Data

/-- The `k` bytes of a number in base 256, least significant first. -/
def bytesOf : Nat → Nat → Bytes → Bytes
  | 0, _, r => r
  | k + 1, n, r => n % 256 :: bytesOf k (n / 256) r

def tz0 (r : Bytes) : Bytes :=
  bytesOf 32 0x0a61726363412f6163697266410a6e616a646962412f61636972664100001162 <|
  bytesOf 32 0x6172656d73412f6163697266410a61626162415f73696464412f616369726641 <|
  bytesOf 32 0x7266410a6975676e61422f6163697266410a6f6b616d61422f6163697266410a <|
  bytesOf 32 0x63697266410a657279746e616c422f6163697266410a6c756a6e61422f616369 <|
  bytesOf 32 0x410a617275626d756a75422f6163697266410a656c6c6976617a7a6172422f61 <|
  bytesOf 32 0x63697266410a79726b616e6f432f6163697266410a6f726961432f6163697266 <|
  bytesOf 32 0x7266410a6d61616c61535f73655f7261442f6163697266410a72616b61442f61 <|
  bytesOf 32 0x63697266410a616c61756f442f6163697266410a6974756f62696a442f616369 <|
  bytesOf 32 0x63697266410a656e6f726f6261472f6163697266410a6e776f74656572462f61 <|
  bytesOf 32 0x7266410a6772756273656e6e61686f4a2f6163697266410a6572617261482f61 <|
  bytesOf 32 0x697266410a6d756f747261684b2f6163697266410a616c61706d614b2f616369 <|
  bytesOf 32 0x6163697266410a61736168736e694b2f6163697266410a696c6167694b2f6163 <|
  bytesOf 32 0x2f6163697266410a656c6c6976657262694c2f6163697266410a736f67614c2f <|
  bytesOf 32 0x626d7562754c2f6163697266410a61646e61754c2f6163697266410a656d6f4c <|
  bytesOf 32 0x6f62616c614d2f6163697266410a616b6173754c2f6163697266410a69687361 <|
  bytesOf 32 0x7266410a75726573614d2f6163697266410a6f747570614d2f6163697266410a <|
  bytesOf 32 0x7266410a756873696461676f4d2f6163697266410a656e616261624d2f616369 <|
  bytesOf 32 0x697266410a616e656d616a644e2f6163697266410a69626f7269614e2f616369 <|
  bytesOf 32 0x697266410a74746f68636b61756f4e2f6163697266410a79656d61694e2f6163 <|
  bytesOf 32 0x6f766f4e2d6f74726f502f6163697266410a756f67756f64616761754f2f6163 <|
  bytesOf 32 0x66410a73696e75542f6163697266410a656d6f545f6f61532f6163697266410a <|
  bytesOf 32 0x6972656d410a6b6164412f61636972656d410a6b656f68646e69572f61636972 <|
  bytesOf 32 0x6d410a616c6c6975676e412f61636972656d410a656761726f68636e412f6163 <|
  bytesOf 32 0x72656d410a61627572412f61636972656d410a61756769746e412f6163697265 <|
  bytesOf 32 0x6d410a736f6461627261422f61636972656d410a6e6f69636e7573412f616369 <|
  bytesOf 32 0x72656d410a61746f676f422f61636972656d410a657a696c65422f6163697265 <|
  bytesOf 32 0x410a73657269415f736f6e6575422f61636972656d410a6573696f422f616369 <|
  bytesOf 32 0x6d410a736163617261432f61636972656d410a6e75636e61432f61636972656d <|
  bytesOf 32 0x656d410a6e616d7961432f61636972656d410a656e6e657961432f6163697265 <|
  bytesOf 32 0x7261754a5f6461647569432f61636972656d410a6f6761636968432f61636972 <|
  bytesOf 32 0x75432f61636972656d410a616369525f6174736f432f61636972656d410a7a65 <|
  bytesOf 32 0x6d6f442f61636972656d410a7265766e65442f61636972656d410a6f61636172 <|
  bytesOf 32 0x452f61636972656d410a6e6f746e6f6d64452f61636972656d410a6163696e69 <|
  bytesOf 32 0x410a6e6f736c654e5f74726f462f61636972656d410a726f6461766c61535f6c <|
  bytesOf 32 0x7275545f646e6172472f61636972656d410a62616874646f472f61636972656d <|
  bytesOf 32 0x6c65646175472f61636972656d410a6164616e6572472f61636972656d410a6b <|
  bytesOf 32 0x472f61636972656d410a616c616d65746175472f61636972656d410a6570756f <|
  bytesOf 32 0x2f61636972656d410a616e617975472f61636972656d410a6c69757161796175 <|
  bytesOf 32 0x4a2f61636972656d410a616e617661482f61636972656d410a786166696c6148 <|
  bytesOf 32 0x724b2f61636972656d410a7561656e754a2f61636972656d410a616369616d61 r
def tz1 (r : Bytes) : Bytes :=
  bytesOf 32 0x2f61636972656d410a7a61505f614c2f61636972656d410a6b6a69646e656c61 <|
  bytesOf 32 0x61636972656d410a73656c65676e415f736f4c2f61636972656d410a616d694c <|
  bytesOf 32 0x6d410a7375616e614d2f61636972656d410a7365636e6972505f7265776f4c2f <|
  bytesOf 32 0x726f6d6174614d2f61636972656d410a657571696e697472614d2f6163697265 <|
  bytesOf 32 0x6978654d2f61636972656d410a6e616c74617a614d2f61636972656d410a736f <|
  bytesOf 32 0x61636972656d410a6e6f6c657571694d2f61636972656d410a797469435f6f63 <|
  bytesOf 32 0x410a746172726573746e6f4d2f61636972656d410a6f6564697665746e6f4d2f <|
  bytesOf 32 0x410a6b726f595f77654e2f61636972656d410a75617373614e2f61636972656d <|
  bytesOf 32 0x6b61445f6874726f4e2f61636972656d410a61686e6f726f4e2f61636972656d <|
  bytesOf 32 0x6972656d410a6167616e696a4f2f61636972656d410a7265746e65432f61746f <|
  bytesOf 32 0x656d410a6f626972616d617261502f61636972656d410a616d616e61502f6163 <|
  bytesOf 32 0x6972502d75612d74726f502f61636972656d410a78696e656f68502f61636972 <|
  bytesOf 32 0x636972656d410a6e696170535f666f5f74726f502f61636972656d410a65636e <|
  bytesOf 32 0x656d410a616e696765522f61636972656d410a6f6369525f6f74726575502f61 <|
  bytesOf 32 0x6f676169746e61532f61636972656d410a6f636e6172425f6f69522f61636972 <|
  bytesOf 32 0x532f61636972656d410a6f676e696d6f445f6f746e61532f61636972656d410a <|
  bytesOf 32 0x6d410a646e757379627365726f63532f61636972656d410a6f6c7561505f6f61 <|
  bytesOf 32 0x0a737474694b5f74532f61636972656d410a736e686f4a5f74532f6163697265 <|
  bytesOf 32 0x6d6f68545f74532f61636972656d410a616963754c5f74532f61636972656d41 <|
  bytesOf 32 0x65542f61636972656d410a746e65636e69565f74532f61636972656d410a7361 <|
  bytesOf 32 0x2f61636972656d410a656c7568542f61636972656d410a61706c616769637567 <|
  bytesOf 32 0x2f61636972656d410a6f746e6f726f542f61636972656d410a616e61756a6954 <|
  bytesOf 32 0x636972656d410a726576756f636e61562f61636972656d410a616c6f74726f54 <|
  bytesOf 32 0x410a6e65796272616579676e6f4c2f6369746372410a676570696e6e69572f61 <|
  bytesOf 32 0x0a6e616d6d412f616973410a7974616d6c412f616973410a6e6564412f616973 <|
  bytesOf 32 0x6873412f616973410a65626f7471412f616973410a727964616e412f61697341 <|
  bytesOf 32 0x0a6e6961726861422f616973410a646164686761422f616973410a7461626167 <|
  bytesOf 32 0x726965422f616973410a6b6f6b676e61422f616973410a756b61422f61697341 <|
  bytesOf 32 0x616973410a69656e7572422f616973410a6b656b687369422f616973410a7475 <|
  bytesOf 32 0x432f616973410a6e61736c6162696f68432f616973410a61747475636c61432f <|
  bytesOf 32 0x0a616b6168442f616973410a73756373616d61442f616973410a6f626d6f6c6f <|
  bytesOf 32 0x6e61687375442f616973410a69616275442f616973410a696c69442f61697341 <|
  bytesOf 32 0x6f4b5f676e6f482f616973410a686e694d5f6968435f6f482f616973410a6562 <|
  bytesOf 32 0x4a2f616973410a6b7374756b72492f616973410a64766f482f616973410a676e <|
  bytesOf 32 0x61737572654a2f616973410a617275706179614a2f616973410a617472616b61 <|
  bytesOf 32 0x73410a616b746168636d614b2f616973410a6c7562614b2f616973410a6d656c <|
  bytesOf 32 0x724b2f616973410a75646e616d74614b2f616973410a6968636172614b2f6169 <|
  bytesOf 32 0x6177754b2f616973410a676e696863754b2f616973410a6b737261796f6e7361 <|
  bytesOf 32 0x73410a72617373616b614d2f616973410a6e61646167614d2f616973410a7469 <|
  bytesOf 32 0x736f63694e2f616973410a74616373754d2f616973410a616c696e614d2f6169 r
def tz2 (r : Bytes) : Bytes :=
  bytesOf 32 0x73410a6b736d4f2f616973410a6b7372696269736f766f4e2f616973410a6169 <|
  bytesOf 32 0x61522f616973410a72617461512f616973410a686e65505f6d6f6e68502f6169 <|
  bytesOf 32 0x0a6e696c61686b61532f616973410a6864617969522f616973410a6e6f6f676e <|
  bytesOf 32 0x69532f616973410a696168676e6168532f616973410a6c756f65532f61697341 <|
  bytesOf 32 0x6e656b687361542f616973410a6965706961542f616973410a65726f7061676e <|
  bytesOf 32 0x2f616973410a6e61726865542f616973410a6973696c6962542f616973410a74 <|
  bytesOf 32 0x6161626e61616c552f616973410a6f796b6f542f616973410a7568706d696854 <|
  bytesOf 32 0x736f766964616c562f616973410a656e6169746e6569562f616973410a726174 <|
  bytesOf 32 0x626e69726574616b65592f616973410a6b7374756b61592f616973410a6b6f74 <|
  bytesOf 32 0x7365726f7a412f6369746e616c74410a6e6176657265592f616973410a677275 <|
  bytesOf 32 0x72616e61432f6369746e616c74410a6164756d7265422f6369746e616c74410a <|
  bytesOf 32 0x462f6369746e616c74410a65647265565f657061432f6369746e616c74410a79 <|
  bytesOf 32 0x69746e616c74410a6b6976616a6b7965522f6369746e616c74410a656f726561 <|
  bytesOf 32 0x7375410a79656c6e6174532f6369746e616c74410a616e656c65485f74532f63 <|
  bytesOf 32 0x6162736972422f61696c6172747375410a656469616c6564412f61696c617274 <|
  bytesOf 32 0x726f4c2f61696c6172747375410a616c6375452f61696c6172747375410a656e <|
  bytesOf 32 0x61696c6172747375410a68747265502f61696c6172747375410a65776f485f64 <|
  bytesOf 32 0x2f65706f7275450a6d6164726574736d412f65706f7275450a79656e6479532f <|
  bytesOf 32 0x6c65422f65706f7275450a736e656874412f65706f7275450a6172726f646e41 <|
  bytesOf 32 0x69746172422f65706f7275450a6e696c7265422f65706f7275450a6564617267 <|
  bytesOf 32 0x6375422f65706f7275450a736c6573737572422f65706f7275450a6176616c73 <|
  bytesOf 32 0x68432f65706f7275450a74736570616475422f65706f7275450a747365726168 <|
  bytesOf 32 0x2f65706f7275450a6e656761686e65706f432f65706f7275450a75616e697369 <|
  bytesOf 32 0x65706f7275450a7965736e726575472f65706f7275450a7261746c6172626947 <|
  bytesOf 32 0x7275450a6e614d5f666f5f656c73492f65706f7275450a696b6e69736c65482f <|
  bytesOf 32 0x706f7275450a79657372654a2f65706f7275450a6c75626e617473492f65706f <|
  bytesOf 32 0x62756a4c2f65706f7275450a6e6f6273694c2f65706f7275450a7669794b2f65 <|
  bytesOf 32 0x6d6578754c2f65706f7275450a6e6f646e6f4c2f65706f7275450a616e616a6c <|
  bytesOf 32 0x61746c614d2f65706f7275450a64697264614d2f65706f7275450a6772756f62 <|
  bytesOf 32 0x0a6f63616e6f4d2f65706f7275450a6e6d6168656972614d2f65706f7275450a <|
  bytesOf 32 0x65706f7275450a6f6c734f2f65706f7275450a776f63736f4d2f65706f727545 <|
  bytesOf 32 0x502f65706f7275450a616369726f67646f502f65706f7275450a73697261502f <|
  bytesOf 32 0x0a6172616d61532f65706f7275450a656d6f522f65706f7275450a6575676172 <|
  bytesOf 32 0x76656a617261532f65706f7275450a6f6e6972614d5f6e61532f65706f727545 <|
  bytesOf 32 0x7275450a6169666f532f65706f7275450a656a706f6b532f65706f7275450a6f <|
  bytesOf 32 0x6f7275450a656e617269542f65706f7275450a6d6c6f686b636f74532f65706f <|
  bytesOf 32 0x562f65706f7275450a6e6163697461562f65706f7275450a7a756461562f6570 <|
  bytesOf 32 0x657267615a2f65706f7275450a7761737261572f65706f7275450a616e6e6569 <|
  bytesOf 32 0x72616e616e61746e412f6e6169646e490a68636972755a2f65706f7275450a62 <|
  bytesOf 32 0x6d7473697268432f6e6169646e490a736f676168432f6e6169646e490a6f7669 r
def tz3 (r : Bytes) : Bytes :=
  bytesOf 32 0x6e490a6f726f6d6f432f6e6169646e490a736f636f432f6e6169646e490a7361 <|
  bytesOf 32 0x6e6169646e490a73657669646c614d2f6e6169646e490a6568614d2f6e616964 <|
  bytesOf 32 0x6e6169646e490a6574746f79614d2f6e6169646e490a73756974697275614d2f <|
  bytesOf 32 0x75412f636966696361500a616970412f636966696361500a6e6f696e7565522f <|
  bytesOf 32 0x452f636966696361500a6d6168746168432f636966696361500a646e616c6b63 <|
  bytesOf 32 0x462f636966696361500a797275627265646e452f636966696361500a65746166 <|
  bytesOf 32 0x616e75462f636966696361500a696a69462f636966696361500a6f666f616b61 <|
  bytesOf 32 0x472f636966696361500a736f676170616c61472f636966696361500a69747566 <|
  bytesOf 32 0x66696361500a6c616e61636c61646175472f636966696361500a726569626d61 <|
  bytesOf 32 0x636966696361500a756c756c6f6e6f482f636966696361500a6d6175472f6369 <|
  bytesOf 32 0x66696361500a656172736f4b2f636966696361500a6974616d69746972694b2f <|
  bytesOf 32 0x696361500a73617365757172614d2f636966696361500a6f72756a614d2f6369 <|
  bytesOf 32 0x4e2f636966696361500a6575694e2f636966696361500a757275614e2f636966 <|
  bytesOf 32 0x61502f636966696361500a61656d756f4e2f636966696361500a6b6c6f66726f <|
  bytesOf 32 0x6f502f636966696361500a75616c61502f636966696361500a6f6761505f6f67 <|
  bytesOf 32 0x6966696361500a79627365726f4d5f74726f502f636966696361500a6570616e <|
  bytesOf 32 0x66696361500a6e61706961532f636966696361500a61676e6f746f7261522f63 <|
  bytesOf 32 0x636966696361500a6177617261542f636966696361500a6974696861542f6369 <|
  bytesOf 32 0x2f636966696361500a6b7572542f636966696361500a7570617461676e6f542f <|
  bytesOf 32 0x0040003f003b003a00350032002f002e002d002c2a0100000cda73696c6c6157 <|
  bytesOf 32 0x006600650063005f005d005c005b00530052004e004d004b0046004500430041 <|
  bytesOf 32 0x011701120109010800b9007800770076007500710070006f006e006d006a0067 <|
  bytesOf 32 0x00e000cd00b600b500b400a800a300a2009d009a00970092007e007d007b1006 <|
  bytesOf 32 0x00dc00ba020100e2010100cc010100c6010100c8010300130107000a010d00e6 <|
  bytesOf 32 0x00da00d600d400d2040100ef010200f2010100cd010100ee00e5020300ce0102 <|
  bytesOf 32 0x003c003708010051010200ca010100f0010100e10079020100eb010100d00101 <|
  bytesOf 32 0x0101006b0068005e0054040100360101004c010100740060005d005800570056 <|
  bytesOf 32 0x00f600f500c500c400c300c200c100c00801009b010200380101003401010069 <|
  bytesOf 32 0x007e007b020b0083010100ab010100ff00fe0201009f0101009e009400930301 <|
  bytesOf 32 0x009801010087010100d5010400aa0102008f010200a9010100b1010200e00102 <|
  bytesOf 32 0x002a010300e2010100ba01010023017100af010300a601010089010100960101 <|
  bytesOf 32 0x0027010100000101000b01010004010100260101000c01010006010200cd0102 <|
  bytesOf 32 0x00180101000101010010010100bd010100fa010100280101001a010100250101 <|
  bytesOf 32 0x0008010100190101001e01010029010100bb0101000f01010005010100240101 <|
  bytesOf 32 0x01010015010100f8010100be010100f4010100bd0101001b0101001c00170201 <|
  bytesOf 32 0x01010009010100140101000d010100230101000e010100220101000201010016 <|
  bytesOf 32 0x0020010100070101002b01010012010100fc00fb020100f30101001d0102001f <|
  bytesOf 32 0x0044030100bc0101003001060003010100be011500f701010021010100110101 <|
  bytesOf 32 0x00d1010100dc010100dc010100dc010100dc010100dc010100dc012d0073006c <|
  bytesOf 32 0x010100dd010100ec010100bd010100da00d400d2030100db010100d800b80201 r
def tz4 (r : Bytes) : Bytes :=
  bytesOf 32 0x00b7010100cf010100cd010100cd010100cd010b00ea010100de00d3020100a1 <|
  bytesOf 32 0x00c9010100e3010100c9010100d7010200e7010100df010100c7010100e00101 <|
  bytesOf 32 0x00ee00e5020200ee00e5020100e5010100e9010200e8010100d9010100f10102 <|
  bytesOf 32 0x00ed010200cb010100e4011600ee00e5020100e5010200ee00e5020100e50101 <|
  bytesOf 32 0x00da00d400d2030300da00d400d2030200da00d400d2030100da010100da0112 <|
  bytesOf 32 0x00e1010100e1010100e1010100e1010100e1010200e1011500da00d400d20301 <|
  bytesOf 32 0x0072010100420101004801010033010100bf011500e1010100e1010100e10101 <|
  bytesOf 32 0x00580101005801010058010d006401010059010100610101003d0101003b0101 <|
  bytesOf 32 0x006b0101006b0101006b0101006b011600580101005801010058010200580101 <|
  bytesOf 32 0x006901010069010100690101006901010069010200540101006b0101006b0103 <|
  bytesOf 32 0x00490201004a0101005001010047011500690101006901010069010100690101 <|
  bytesOf 32 0x00c5010c004f003e0201005a0101006201010055010100310101003901010105 <|
  bytesOf 32 0x0102009e010200930101009e0093020400c5010300c5010100c5010100c50101 <|
  bytesOf 32 0x010100fe010100fe010100fe010100fe010100fe010d00930101009301010093 <|
  bytesOf 32 0x0101010e01010086010101100102008c011500fe010100fe010100fe010100fe <|
  bytesOf 32 0x010101160101011c010101130101010301010100010101070101011a01010115 <|
  bytesOf 32 0x01010118010d0106030101040101011101010119010a0101030100fd0102010f <|
  bytesOf 32 0x010400e0010100b6010100b6010100b60129010c0101011b0114010b03010102 <|
  bytesOf 32 0x010100e00102007b0107007b0101007b011600e0010100e0010100e0010700cd <|
  bytesOf 32 0x010100a4010200aa01010090010200a9013f00e0010100e0010300e0010100e0 <|
  bytesOf 32 0x010100aa010100aa010100aa010100aa010100aa010100aa010100aa010500b3 <|
  bytesOf 32 0x0101008a0101007c01010084010100f9014a00ac0106008b010b00aa010100aa <|
  bytesOf 32 0x010100950101008d010100cd010200a00101007a010100a70101009c01010080 <|
  bytesOf 32 0x0101007f0101008e010f0099010100b200910088030100b0010100a501010081 <|
  bytesOf 32 0x0100780101005d0101005d0101005d0101cb00ad01020085010100ae01010082 <|
  bytesOf 32 0x01003b010100520101005d0102003b010100520102005d010100520101003b01 <|
  bytesOf 32 0x01003b0101005d0103005d0101005d0101003b0101003b0101005d0101005d01 <|
  bytesOf 32 0x01003b0101005d0103005d0102005d0101003b0101005d010100750101003b01 <|
  bytesOf 32 0x010077010100750101005d010200320104005c0102005d0101005d0103007701 <|
  bytesOf 32 0x01003b0102005d010300770101003b0102003b010100520101005d0101003b01 <|
  bytesOf 32 0x02003b0102005d0102005d0101005d0101002f0101005d0103002e0101007501 <|
  bytesOf 32 0x01005d0101005d010c0075010500760101005d0102003b010200520103005d01 <|
  bytesOf 32 0x01003b0103003b0101003b0101003f010100670101005d0101005d0101003f01 <|
  bytesOf 32 0x01003b0101003b0101003b0101005d0101003b0101005d0101003b0101005d01 <|
  bytesOf 32 0x01005d0101005d0102003b0101005d0101003b0101005d010100520102005d01 <|
  bytesOf 32 0x020052010100700101005d0102003b0101005d0102003b0102005d0101003b01 <|
  bytesOf 32 0x01003b0101005d0101005d010100520103005d0101003b0101003a0102007501 <|
  bytesOf 32 0x01004101010075010200750101005d0101005d0102003b010100520106007501 <|
  bytesOf 32 0x0100410101003b0101005d010f005d0101003f010300750102005d010b005201 <|
  bytesOf 32 0x01005d0102005d0101003b010100520101005d0101003f0101003b0101005d01 r
def tz5 (r : Bytes) : Bytes :=
  bytesOf 32 0x01003b0104005d010100750101003b01010075010100520101003b0101005d01 <|
  bytesOf 32 0x02003f0101005d0102003b010100780101003b0102004b010300520101005201 <|
  bytesOf 32 0x01003b0102005d0102005d01010052010100b90101005d010200750101007501 <|
  bytesOf 32 0x02005d0101003b010100750104003b0101005d01050052010800750102005d01 <|
  bytesOf 32 0x11005d010400630101003b0101005d0103005d01010078010100460101005d01 <|
  bytesOf 32 0x01005d0101003b0101004b0101003f0101003b010100520101005d0101003b01 <|
  bytesOf 32 0x01005d0101005d0101003b010100750101005d0101003b010200520101005201 <|
  bytesOf 32 0x01005d0101003b0105003b0103003b01010052010a0063010100750101005d01 <|
  bytesOf 32 0x01003b010100520101005d010200520102003b0106005d010300750107005201 <|
  bytesOf 32 0x04003f0101005d0101003b0101003b0101005d0101005d0103005d0103005201 <|
  bytesOf 32 0x0e00410101005d0101005d010100780102005d010100750101003b0101007501 <|
  bytesOf 32 0x3b0101005d0101005d0101005f003f020100770101005d010100630101003b01 <|
  bytesOf 32 0x5d0101005d0101003b0101005d010100750101003b0102005d0101005d010100 <|
  bytesOf 32 0x3b0101003b0101005201020052010300630103003b010100520101003b010100 <|
  bytesOf 32 0x750101005d0101005d0104003b0101005d010100670103003b0105005d010100 <|
  bytesOf 32 0x3b0101003b0101004d010100520101005d0105003b0101005201010045010200 <|
  bytesOf 32 0x770101010801010117010100520102005d0103005b0102003b01010052010100 <|
  bytesOf 32 0x3b0103005d01020112010100750101003b0101005d0101005d0102005d010600 <|
  bytesOf 32 0x0100520101005d010100750101005d0101005d010100520101005f003f020c00 <|
  bytesOf 32 0x5d0101005d0101003b010100520101003b0101003b0103006d00660201003b01 <|
  bytesOf 32 0x5d0101003b010100520101005d010300530101003f0101003f0101005d010100 <|
  bytesOf 32 0x5d010200520101003b0103005d0102005d0101003b0101003b0102005d010100 <|
  bytesOf 32 0x6f0101005d0103005d010100750105003f010100520104005d01010075010200 <|
  bytesOf 32 0x5d0101005d0101003b010200400102005d0102003b0101005d01020052010200 <|
  bytesOf 32 0x0100410101003b010100770103005200350201005d0101003b0101005d010100 <|
  bytesOf 32 0x01005d0101003f010e00660101005d0101003b010100710102004b0101005d01 <|
  bytesOf 32 0x02005d0101006a01010109010100750101003b010100520101005d0101005d01 <|
  bytesOf 32 0x010075010100520101003b0101003b0101003b0101005d0101005d0101005d01 <|
  bytesOf 32 0x0100520101003b0101006a0101005d0102005d010100410104005d0101005201 <|
  bytesOf 32 0x01003b0102005d0102005d010300520101005d0101005d0103005d0103003b01 <|
  bytesOf 32 0x01005d010100520101005d0101005d0102005d0104005d0101006a0101005d01 <|
  bytesOf 32 0x01006e01010065010100430102005d0101005d0101005d0101005d0102005d01 <|
  bytesOf 32 0x4b0101003b0116006d00660201005d0102004d010300750101003b0102003b01 <|
  bytesOf 32 0x0100520101005d0101002d002c0201005d010100750101005d0101003b010100 <|
  bytesOf 32 0x01003b0101005d010100520101003f0101005d0101003b0101005d0102005d01 <|
  bytesOf 32 0x02005d0103003b0101005d0101005d01010063010300520105003b0101005d01 <|
  bytesOf 32 0x02005d010100750101005d0101003b010100660101003b0101005d0101003b01 <|
  bytesOf 32 0x03003b0102005d0102003b01010052010200520101005d0101005d0102003b01 <|
  bytesOf 32 0x01003b0101005d0103003b0102005d0101003b010100520101003f010b005d01 <|
  bytesOf 32 0x010100170103ba005d0103005200350201003b0101005d0101003f0103005d01 r
def tz6 (r : Bytes) : Bytes :=
  bytesOf 32 0x04a8001c00170201001c0017020200170101001701010017010100170101001c <|
  bytesOf 32 0x8000440101004401020044010100440101004401010044010100440101004401 <|
  bytesOf 32 0x00b8020100d800b8020100d800b8020300d800b8020100d8010100d800b80204 <|
  bytesOf 32 0x010100d3010100de00d3020100d3010100d3010100d3013e00d800b8020100d8 <|
  bytesOf 32 0xda00d400d2030100da00d400d20306f100d3010100d3010100de00d3020100d3 <|
  bytesOf 32 0xda00d400d2030100da00d400d2030100da00d400d2030100da00d400d2030100 <|
  bytesOf 32 0x03e300790102ac00da00d400d2030100da00d400d2030100da00d400d2030200 <|
  bytesOf 32 0x006b0101006b0102006b0101006b010299005701050057010100570101005701 <|
  bytesOf 32 0x005401010054010100540101006b0101006b0101006b0101006b0106006b0101 <|
  bytesOf 32 0x01010500490202cc006b0101006b0102006b0106006b01150054010100680101 <|
  bytesOf 32 0x01004f0136004901020049010100490101004901010049010100490101004901 <|
  bytesOf 32 0x00c0020100c400c0020100c400c00201bb003e0102004f0101003e0102004f01 <|
  bytesOf 32 0x009e0101009301010093010100930101009301010093012a00c400c0020100c4 <|
  bytesOf 32 0x010a009e0093021800930101009e0101009e01010093010f009e0101009e0101 <|
  bytesOf 32 0x01011b0114010b0305011b011301180104d40094010600940101009401010094 <|
  bytesOf 32 0x00a2010100a2010100a3012800e6012700b5010100920102fe011b0114010b03 <|
  bytesOf 32 0x00b5011000920101009a0103009a0101009a0102009a0103009a0101009a0101 <|
  bytesOf 32 0x007d010100b4010200a8010100b4010200b4010500b5010100970102009d0102 <|
  bytesOf 32 0xe0010100e0010300e0007e007b0347007e0110007e0101007e0101007e01029c <|
  bytesOf 32 0x0100e000cd021e00e0007e007b030100e0007e007b030100e0007e007b030400 <|
  bytesOf 32 0x0300e6010100e0010100e6010100e0010100e0010100e0010100e6010100e001 <|
  bytesOf 32 0x00b2010100b2010100b2010100b2010ef400e0010100e0010100e0010400e601 <|
  bytesOf 32 0x5200350203005200350201005200350202003f01010052003502128900b20101 <|
  bytesOf 32 0x010100520101005201010052010100520101005201010052010100520107f500 <|
  bytesOf 32 0xfc010100fc010600fc010100fc010100fc00fb020b00fc010600fb0166e20052 <|
  bytesOf 32 0xf200ba010600ba015e00ba010100ba010500ba0125d7006c01020073011cfc00 <|
  bytesOf 32 0x00d3020900de00d3020100de00d3020900de00d3020200de010800de00d30206 <|
  bytesOf 32 0xd2030200da00d400d20345b000de00d3021400de00d3020a00de00d3020b00de <|
  bytesOf 32 0xd2030100da00d400d2030100da00d400d2030200da00d400d2030100da00d400 <|
  bytesOf 32 0x01080057016e005d0058020100740058023a8800da00d400d2030100da00d400 <|
  bytesOf 32 0x010057010100570101df0057013e005701020057010100570101005701040057 <|
  bytesOf 32 0x5701020058005702030074011400600108005801020074010100570101005701 <|
  bytesOf 32 0x74010100570101005701010074010100570101003c0103005701010057010100 <|
  bytesOf 32 0x5801020057010100570101005701020074010100740101005801010057010100 <|
  bytesOf 32 0x5701010074010900580101005801010058010100580101005701010057010100 <|
  bytesOf 32 0x010300370101003701540056010500560110005601010056010a00560101b400 <|
  bytesOf 32 0x0049021bcd005e0102005e0102005e0101005e0102005e0115fe0037010b0037 <|
  bytesOf 32 0x9e00940218009e00930202f4009e009302019800c400c0027c00c10112cb0105 <|
  bytesOf 32 0x9e0101009e009302010093010200930101009e0101009e0135009e0093023700 <|
  bytesOf 32 0x93020b00930101009e0101009e0101009301030093010300930101009e010100 r
def tz7 (r : Bytes) : Bytes :=
  bytesOf 32 0x00930205009e00930205009e00930201009e00930207009e0093020290009e00 <|
  bytesOf 32 0x009e0093020e009e00930205009e00930201009e00930202009e00930202009e <|
  bytesOf 32 0x0094011f0093010500940093021c009e0093020b009e00930208009e0093020f <|
  bytesOf 32 0x0103009301010094010400930101009401010094010100940103009400930201 <|
  bytesOf 32 0x01060324aa00ff010ac700930104009401040094010200940102009401010094 <|
  bytesOf 32 0x01deba010b0105011401018f01180101011801010118010d010603070118010d <|
  bytesOf 32 0x0100b2010100b2010100b2010600b201010091010100b2010100b2010100b201 <|
  bytesOf 32 0x5200350201005200350202003f0105003f0101b59d00b2010100b20101009101 <|
  bytesOf 32 0x0e003f0103005200350201005200350202003f0104003f010100520035020a00 <|
  bytesOf 32 0x350202005200350201005200350201003f0101003f0101005200350205005201 <|
  bytesOf 32 0x5200350201005200350201005200350201005200350201005200350202005200 <|
  bytesOf 32 0x003b0104003b0108cb003f0101003f0102003f0101003f010100520035020100 <|
  bytesOf 32 0x02005d010e005d010a005d0159eb003f011dac003b0127d2003b0101003b0101 <|
  bytesOf 32 0x0101003b014ad1003b0121003b0101003b0102003b01018dfb005d010d005d01 <|
  bytesOf 32 0xc600520103005201030052012f005201020052010100520139ef003b0102003b <|
  bytesOf 32 0x3b0112003b0115003b0102003b0102003b0114003b011dc0003b0105003b011c <|
  bytesOf 32 0x00fc010100fc0104aedd004e010c004e0106004e0103004e0102004e012c8400 <|
  bytesOf 32 0x00d201038bab00ee00e50202b59e00b8010100b8010300b80105b7bf00fb0106 <|
  bytesOf 32 0xda00d400d2030200da00d400d2030100da00d400d2032f8000d4015a00d60135 <|
  bytesOf 32 0xda00d400d2030600da00d400d2032f00da00d400d2030200da00d400d2030100 <|
  bytesOf 32 0x006b0142006b0107e1005e0101005e0101005e0102005e0104005e0106dee000 <|
  bytesOf 32 0x010900c1010300c1010100c1010e00c1010100c1010200c1010200c10103c5f9 <|
  bytesOf 32 0x010100c1010200c1010500c1010200c1010300c1010800c1010600c1010100c1 <|
  bytesOf 32 0xc4010100c400c00208e100c1011000c1010100c1010100c1010100c1010700c1 <|
  bytesOf 32 0xc1011b010701140102011401030114010101140104bdbe00c5010100c5010200 <|
  bytesOf 32 0x01003f0101003f0105003f01060052010e003f010e94870088016400880111ac <|
  bytesOf 32 0x01003f0102003f0101003f0101003f010400520103003f0101003f010d003f01 <|
  bytesOf 32 0x0c003f010b00520102005201020052010100520104003f010300520101003f01 <|
  bytesOf 32 0x0300520035020500520035020f0052010100520107003f010500520102005201 <|
  bytesOf 32 0x3502060052003502030052003502020052003502010052003502010052003502 <|
  bytesOf 32 0x5200350203005200350206005200350201005200350201005200350206005200 <|
  bytesOf 32 0x0100520035020100520035020400520035020100520035020200520035020300 <|
  bytesOf 32 0x3502060052003502010052003502050052003502020052003502020052003502 <|
  bytesOf 32 0x5200350201005200350201005200350201005200350206005200350201005200 <|
  bytesOf 32 0x01005200350201003f0101003f0101003f010100520035020100520035020300 <|
  bytesOf 32 0x3f0102003f0103003f0101005200350201003f01010052003502010052003502 <|
  bytesOf 32 0x3f0101005200350202005200350201005200350206005200350202003f010500 <|
  bytesOf 32 0x0100520101003f0101005200350201005200350201003f010100520035020100 <|
  bytesOf 32 0x520035020100520101003f0101005200350201003f0101005200350201003f01 <|
  bytesOf 32 0x5200350201005200350201005201010052003502010052010100520035020100 r
def tz8 (r : Bytes) : Bytes :=
  bytesOf 32 0x520101005200350201003f0101003f0101003f0101003f010100520035020100 <|
  bytesOf 32 0x350201005200350205005200350204005200350201003f010100520035020100 <|
  bytesOf 32 0x0100520101003f0101005200350201003f0101003f0101005200350201005200 <|
  bytesOf 32 0x09003f010a003f0106003f0105003f0105005200350201003f01010052003502 <|
  bytesOf 32 0x03003f0101003f0103003f0101003f0102003f0101003f0114003f0101003f01 <|
  bytesOf 32 0x03003f0101003f0101003f010100520104003f0103003f0102003f0101003f01 <|
  bytesOf 32 0x02003f0107003f0101003f0104003f0102003f0101003f0101003f0107003f01 <|
  bytesOf 32 0x0c00520102003f0106003f010600520101003f0106003f0101003f0101003f01 <|
  bytesOf 32 0x03003f0103003f0102003f0101003f010300520101003f010100520101003f01 <|
  bytesOf 32 0x01003f0102003f0104003f010100520109003f010200520101003f0102003f01 <|
  bytesOf 32 0x010052010100520101003f0103003f0101003f010100520104003f010d005201 <|
  bytesOf 32 0x520035020100520102003f0102003f0104005201040052010100520102003f01 <|
  bytesOf 32 0x350201003f0101003f010100520101003f010100520035020100520035020100 <|
  bytesOf 32 0x5200350202005200350205003f0103003f0104003f0101005200350201005200 <|
  bytesOf 32 0x0400520035020100520035020800520035020100520035020100520035020500 <|
  bytesOf 32 0x520101003f0101005200350204003f01010052010900520101003f0102005201 <|
  bytesOf 32 0x5200350201005200350201003f01010052010100520035020100520035020100 <|
  bytesOf 32 0x3f01010052003502010052003502030052010400520101005201030052010100 <|
  bytesOf 32 0x02003f0101003f0101003f0101005200350201003f0101005201010052010100 <|
  bytesOf 32 0x05003f010b0052010100520104003f010f0052010100520104003f0103005201 <|
  bytesOf 32 0x350205005200350204003f0101003f010300520102003f0104003f0102005201 <|
  bytesOf 32 0x5200350201005200350202005200350204005200350201005200350201005200 <|
  bytesOf 32 0x5200350201005200350201005200350201003f0101003f010200520035020300 <|
  bytesOf 32 0x52010100520103003f0101003f01010052003502010052003502010052010100 <|
  bytesOf 32 0x3502030052003502010052003502010052003502030052003502040052010200 <|
  bytesOf 32 0x01003f0103003f0101003f0109003f0102003f0102003f0103003f0104005200 <|
  bytesOf 32 0x02003f0101003f0102003f010100520101003f0106003f010200520104003f01 <|
  bytesOf 32 0x0200520107003f0101003f0105003f0102003f010100520102003f0103003f01 <|
  bytesOf 32 0x003b014ff6003f0101003f0101003f0103003f0102003f010600520113005201 <|
  bytesOf 32 0x003b0117003b010d003b0101003b0116003b0102003b0113003b010f003b0101 <|
  bytesOf 32 0x003b0105003b0104003b0103003b0111003b0113003b0101003b0101003b0102 <|
  bytesOf 32 0x003b0116003b010d003b011d003b0101003b0102003b0102003b0101003b0112 <|
  bytesOf 32 0x003b0124003b0101003b0102003b0101003b0101003b0107003b0101003b0102 <|
  bytesOf 32 0x003b0101003b0101003b0102003b0140003b0125003b010a003b0111003b0112 <|
  bytesOf 32 0x003b0111003b0102003b0103003b0105003b0115003b010b003b0106003b011b <|
  bytesOf 32 0x003b0103003b0102003b0101003b0101003b0103003b0102003b0101003b0101 <|
  bytesOf 32 0x003b0102003b0121003b010c003b0104003b0102003b0106003b0101003b0109 <|
  bytesOf 32 0x003b0106003b0101003b0101003b010b003b0101003b0107003b0101003b0106 <|
  bytesOf 32 0x003b0109003b0101003b0106003b014d003b0101003b0104003b0101003b0101 <|
  bytesOf 32 0x011300410101eca6003b0107003b0102003b0104003b0103003b0103003b0105 r
def tz9 (r : Bytes) : Bytes :=
  bytesOf 32 0x0106004101460041010300410102004101010041014e00410101004101010041 <|
  bytesOf 32 0x080041013700410101e60041013d004101010041010100410101004101020041 <|
  bytesOf 32 0x3b0106003b011c003b010197d600410101004101020041010100410102004101 <|
  bytesOf 32 0x3b0108003b0106003b0108003b0104003b0105003b0102003b0103003b010100 <|
  bytesOf 32 0x3b010b003b0105003b0103003b0102003b0123003b0110003b0108003b010100 <|
  bytesOf 32 0x3b0114003b0102003b0104003b0101003b0104003b0113003b0103003b010800 <|
  bytesOf 32 0x3b010a003b0112003b0101003b0101003b0101003b0102003b0107003b011100 <|
  bytesOf 32 0x3b0101003b0101003b0102003b0102003b011b003b0108003b0104003b010b00 <|
  bytesOf 32 0x3b010c003b0109003b0107003b0105003b0104003b0103003b0101003b010600 <|
  bytesOf 32 0x3b010a003b0101003b0106003b0104003b0114003b0101003b010b003b010b00 <|
  bytesOf 32 0x3b010b003b0102003b0106003b0106003b0102003b0105003b0106003b010100 <|
  bytesOf 32 0x3b0101003b0107003b0101003b0113003b0101003b0112003b0110003b010d00 <|
  bytesOf 32 0x3b0107003b0106003b0105003b0101003b0102003b0103003b0101003b010100 <|
  bytesOf 32 0x3b0101003b0103003b0101003b0106003b0103003b0101003b0101003b010100 <|
  bytesOf 32 0x3b0101003b0103003b0101003b0101003b0101003b0103003b0117003b010100 <|
  bytesOf 32 0x3b0102003b010d003b0102003b010c003b0106003b0103003b0101003b010b00 <|
  bytesOf 32 0x3b0114003b0103003b0103003b0109003b0102003b0101003b0101003b010400 <|
  bytesOf 32 0x02a2ff003b0117003b0121003b0103003b0101003b0101003b0101003b010200 <|
  bytesOf 32 0x1d003f012a003f0119003f012b003f0102003f0114003f0108003f0113003f01 <|
  bytesOf 32 0x02003f0101003f0102003f0107003f014d003f016e003f0104003f0109003f01 <|
  bytesOf 32 0x4b0131004b0106dbe7003f0108003f0166003f010a003f0161003f011e003f01 <|
  bytesOf 32 0x0101005d0101005d0115005d0106005d0101005d0108005d0107005d0120f800 <|
  bytesOf 32 0x0101005d0101005d0102005d0101005d0105005d0103005d0101005d0106005d <|
  bytesOf 32 0x0108005d0102005d0103005d0101005d0103005d0101005d0106005d0105005d <|
  bytesOf 32 0x0101005d010f005d0105005d0105005d0101005d010a005d0102005d0109005d <|
  bytesOf 32 0x0101005d010d005d010d005d0108005d0108005d0103005d0101005d0101005d <|
  bytesOf 32 0x0103005d0106005d0101005d0102005d0101005d0113005d0106005d0104005d <|
  bytesOf 32 0x0111005d0101005d010e005d0102005d0108005d0101005d0103005d0105005d <|
  bytesOf 32 0x0106005d0104005d010b005d0102005d0101005d0104005d0110005d0102005d <|
  bytesOf 32 0x0104005d0103005d0106005d0106005d0104005d0101005d0104005d0107005d <|
  bytesOf 32 0x0101005d0101005d0104005d0103005d0105005d0103005d0101005d0103005d <|
  bytesOf 32 0x0102005d0103005d0111005d0101005d0103005d0108005d0107005d0108005d <|
  bytesOf 32 0x0103005d0101005d010b005d0104005d0105005d0104005d0101005d0102005d <|
  bytesOf 32 0x0102005d0103005d010c005d0102005d0106005d0104005d0101005d011e005d <|
  bytesOf 32 0x0106005d0101005d0101005d0101005d0108005d0102005d0105005d0101005d <|
  bytesOf 32 0x0104005d0103005d0101005d0104005d0103005d0101005d0103005d0101005d <|
  bytesOf 32 0x0104005d0104005d0102005d0101005d0103005d0106005d0103005d0103005d <|
  bytesOf 32 0x0101005d0103005d0101005d0110005d0102005d0101005d0102005d0102005d <|
  bytesOf 32 0x0102005d0101005d0107005d0103005d0101005d0101005d0103005d010d005d <|
  bytesOf 32 0x0106005d0101005d0101005d0101005d0105005d0101005d0102005d010a005d r
def tz10 (r : Bytes) : Bytes :=
  bytesOf 32 0x0102005d0106005d0108005d0105005d0101005d0101005d0106005d0102005d <|
  bytesOf 32 0x010e005d0102005d0113005d0104005d0101005d0102005d0105005d0106005d <|
  bytesOf 32 0x3f0108003f010398003f0165003f01079587005d010a005d0104005d0107005d <|
  bytesOf 32 0x3f0102003b0104003b0108003f0108003b0101ece1003b017c003b010280f300 <|
  bytesOf 32 0x3b0101003f0115003b0102003b0103003b0103003b0101003b0101003b010100 <|
  bytesOf 32 0x3b0105003f0104003b0101003b0103003b0109003b0101003b0101003b010400 <|
  bytesOf 32 0x3f010d003b0105003b0101003b0101003b0109003b0102003b010d003b010d00 <|
  bytesOf 32 0x3b0101003b010f003f0107003f0101003f0102003b0102003f0101003f010100 <|
  bytesOf 32 0x3f0102003f0101003b0103003b0103003f0105003b0102003f0101003b010200 <|
  bytesOf 32 0x3b0101003b010a003f0110003f0102003b0103003f0101003f0102003f010100 <|
  bytesOf 32 0x3f010c003b0111003f0107003b0110003b0101003f0101003f0102003b010200 <|
  bytesOf 32 0x3f0115003b010a003b0104003b0107003b0104003b011e003b010b003b010300 <|
  bytesOf 32 0x3b010c003b0104003b0101003f0104003b0105003f0102003b0104003f010400 <|
  bytesOf 32 0x3b0103003f0102003f0101003f010e003b0101003b0102003b0102003b010c00 <|
  bytesOf 32 0x3f0108003b0104003f0104003b0101003b0102003f0101003b0110003b010200 <|
  bytesOf 32 0x3f0101003f0101003f0101003f0101003f0101003f0101003f0101003f011f00 <|
  bytesOf 32 0x3b0106003b0102003f0102003b0109003b0106003b0103003b0101003b010100 <|
  bytesOf 32 0x3b0103003b0102003b0101003b0107003b0102003b0104003b0104003f010200 <|
  bytesOf 32 0x3b0103003b0105003f0102003b010c003f011b003b0105003f0104003f010900 <|
  bytesOf 32 0x3b0104003b0107003f0108003f0103003b0102003b0101003b0101003b010700 <|
  bytesOf 32 0x3b0101003b0103003b0102003f011f003f0106003b0104003b0101003b010300 <|
  bytesOf 32 0x3b0106003b010d003f010d003b0105003b0101003b0104003b0101003b010b00 <|
  bytesOf 32 0x6da5003b010386003b0101003b0101003b0105003b0102003b0101003b010400 <|
  bytesOf 32 0x3f0102003f010b003b0102003b0107003b0105003b0104f7b0003f0108003f01 <|
  bytesOf 32 0x3b0101003b0103003b0106003b0106003b0104003b0113003b0101003b010e00 <|
  bytesOf 32 0x3b0108003b0101003b0104003b0103003f0102003b0104003b0102003b010100 <|
  bytesOf 32 0x3b0103003b0103003b0102003b0104003b010f003b0104003b0101003b011100 <|
  bytesOf 32 0x3b010c003b0102003b0104003b0102003b0101003b0103003b0105003b010100 <|
  bytesOf 32 0x3b0109003b0102003b0101003b0119003b0109003b0101003b0102003b010300 <|
  bytesOf 32 0x3b0101003b0106003f0102003b0102003b0104003b0102003b0102003b010700 <|
  bytesOf 32 0x3f0118003b0107003b0109003f0105003b0101003b0101003b0105003b010800 <|
  bytesOf 32 0x3b0105003f0101003b0111003b0109003b0108003b0102003b0103003b010400 <|
  bytesOf 32 0x3b0101003b0104003f010e003b010e003b010b003f0107003b0102003f010300 <|
  bytesOf 32 0x3b0110003b0103003b0101003b0101003b010a003b010a003b0106003b010800 <|
  bytesOf 32 0x3b0103003b0102003b0104003b0103003b0101003b0108003b0106003b012900 <|
  bytesOf 32 0x3b0101003b0102003b0106003b0102003f0107003b0101003b0102003b010300 <|
  bytesOf 32 0x3b0102003b0105003b0101003b0101003b0106003b0103003b0101003b010100 <|
  bytesOf 32 0x3b0103003b0101003b0101003b0104003b0109003f0119003b0102003b010200 <|
  bytesOf 32 0x3f0106003b0108003b0101003b0103003b0102003b0107003b0102003b010100 <|
  bytesOf 32 0x0138db003b0103003b010d003b0105003b0136003b010a003b010a003b010100 r
def tz11 (r : Bytes) : Bytes :=
  bytesOf 32 0x0104006d0152004b0103006d0116006d0101006d0113006d0108006d0102006d <|
  bytesOf 32 0x0102006d012c006d0115006d0102006d0108006d0104006d0111006d0145006d <|
  bytesOf 32 0x0104006d0102006d0102006d0101006d0126006d0111006d0103006d0129006d <|
  bytesOf 32 0x0104006d011b006d0108006d0102006d0103006d0109006d0116006d0108006d <|
  bytesOf 32 0x0103006d0101006d0106006d0102006d0106006d0101006d0109006d0103006d <|
  bytesOf 32 0x010b006d0132006d0102006d012e006d0104006d0117006d0101006d0101006d <|
  bytesOf 32 0x0052010400520101005201020052011e00520103fde8004b0130004b0101006d <|
  bytesOf 32 0x005201030052010b00520106005201020052010f005201040052010600520103 <|
  bytesOf 32 0x00520108005201100052010c00520103005201200052010f0052010900520102 <|
  bytesOf 32 0x0052010d005201040052010300520101005201010052011f0052010100520107 <|
  bytesOf 32 0x0052012b00520109005201030052010700520102005201080052010300520105 <|
  bytesOf 32 0x00520101005201220052010200520109005201020052011f005201070052010c <|
  bytesOf 32 0x00520109003f0107005201150052010100520109005201010052010100520101 <|
  bytesOf 32 0x0052011f00520101005201010052010100520102005201070052010300520101 <|
  bytesOf 32 0x0052010400520104005201010052010a00520101005201040052010100520101 <|
  bytesOf 32 0x0052010100520108005201090052010100520101005201010052010300520101 <|
  bytesOf 32 0x0052010100520102005201010052010100520104005201010052010500520101 <|
  bytesOf 32 0x0052010200520106005201020052010100520101005201010052011e0052010d <|
  bytesOf 32 0x0052010a005201010052011a0052014b00520103005201120052010200520104 <|
  bytesOf 32 0x0078010100780101c10078013300780101a6cc003f0109003f0126003f014d8e <|
  bytesOf 32 0x0f003b0101003b0122e300780101c50078010a00780101b3007801420078010e <|
  bytesOf 32 0x01003b0105003b0115003b010e003b010d003b0102003b0121003b0101003b01 <|
  bytesOf 32 0x46003b010f003b0104003b0143003b0121003b011f003b0147003b0138003b01 <|
  bytesOf 32 0x0c003b011c003b0117003b0107003b0109003b0105003b010b003b0104003b01 <|
  bytesOf 32 0x3b0105003b0102003b0106003b0102a2df003b0116003b0101003b0119003b01 <|
  bytesOf 32 0x3b0102003b0101003b0101003b0104003b0103003b0101003b0102003b010200 <|
  bytesOf 32 0x3b0102003b0106003b0101003b0101003b0104003b0101003b0103003b010b00 <|
  bytesOf 32 0x3b0105003b0102003b0102003b0102003b0102003b0102003b0102003b010100 <|
  bytesOf 32 0x3b0104003b0101003b0108003b0105003b0109003b0101003b010c003b010300 <|
  bytesOf 32 0x3b0108003b0106003b0101003b0114003b0109003b0105003b0103003b010500 <|
  bytesOf 32 0x3b0112003b0102003b0103003b0106003b0103003b0104003b0103003b010100 <|
  bytesOf 32 0x3b0102003b0110003b010f003b0105003b0101003b0103003b0103003b010100 <|
  bytesOf 32 0x3b0102003b0102003b0108003b0102003b0101003b010c003b0103003b010400 <|
  bytesOf 32 0x3b0103003b0106003b010b003b0103003b0101003b0102003b0102003b010100 <|
  bytesOf 32 0x3b0119003b0104003b0106003b0102003b0106003b0102003b0101003b010100 <|
  bytesOf 32 0x3b0102003b0101003b0104003b0101003b0101003b0101003b0104003b010900 <|
  bytesOf 32 0x3b0101003b010b003b0102003b0101003b0101003b010f003b010b003b010100 <|
  bytesOf 32 0x3b010a003b0105003b0105003b0103003b0101003b010a003b0101003b010100 <|
  bytesOf 32 0x3b010a003b0104003b0109003b0103003b0112003b0101003b0102003b010100 <|
  bytesOf 32 0x3b010f003b0106003b010f003b0101003b010e003b0104003b0106003b010100 r
def tz12 (r : Bytes) : Bytes :=
  bytesOf 32 0x3b0102003b010b003b0105003b0111003b0101003b0105003b0106003b010100 <|
  bytesOf 32 0x3b0102003b0101003b010e003b0102003b0112003b0102003b0102003b010100 <|
  bytesOf 32 0x3b0101003b0101003b010e003b0101003b0105003b0102003b0107003b010900 <|
  bytesOf 32 0x3b0103003b0102003b0102003b0101003b0102003b0102003b0110003b010200 <|
  bytesOf 32 0x3b0101003b0101003b0107003b0102003b0103003b0101003b0111003b010700 <|
  bytesOf 32 0x012e00410133007701500077013f0077013b0077017fd3003b0101003b010b00 <|
  bytesOf 32 0x01010041015f004101520041011a0041010100770101007701160078010c0077 <|
  bytesOf 32 0x3b0102aa003b0102ab800077010a004101040075013b0041012e004101010041 <|
  bytesOf 32 0x3b0101003b0123003b0131003b0103003b0102003b0115003b015a003b016400 <|
  bytesOf 32 0x010f004e0103004e0102004e0112004e0103004e010295003b0139003b010b00 <|
  bytesOf 32 0x010e004e0105004e0102004e0102004e0102004e0101004e0105004e0102004e <|
  bytesOf 32 0x0101004e0101004e0101004e011a004e010b004e0105004e0102004e0110004e <|
  bytesOf 32 0x0101004e010d004e0103004e0105004e0101004e0101004e0101004e0103004e <|
  bytesOf 32 0x0114004e0101004e0112004e0124004e010a004e0102004e0101004e0101004e <|
  bytesOf 32 0x0105004e0102004e0101004e0101004e0107004e0105004e0109004e0102004e <|
  bytesOf 32 0x0102004e0104004e0101004e0101004e0112004e0114004e0101004e011b004e <|
  bytesOf 32 0x011f004e0102004e010d004e0109004e0124004e010501090101004e010b004e <|
  bytesOf 32 0x0102004e0104004e0109004e0112004e0102004e0106004e0105004e0106004e <|
  bytesOf 32 0x0104004e0113004e0101004e0101004e0102004e0101004e0109004e0104004e <|
  bytesOf 32 0x0120004e0101004e0103004e0103004e0103004e0104004e0104004e0102004e <|
  bytesOf 32 0x0106004e0110004e010a004e0101004e0106004e0105004e0104004e0104004e <|
  bytesOf 32 0x003f02019ecc004e0111004e0125004e0122004e0103004e0109004e0109004e <|
  bytesOf 32 0x63003f02090063003f02030063003f02010063003f02010063003f0203850063 <|
  bytesOf 32 0x010063003f02030063003f02010063003f021a0063003f02010063003f020b00 <|
  bytesOf 32 0x2aacb90063003f02540063003f02060063003f021a0063003f021a0063003f02 <|
  bytesOf 32 0xfc010100fb014f00fc010100fb01128100fb010100fc0122b300fb010100fc01 <|
  bytesOf 32 0x0111005e0106005e01669aea00ee014df88100fb010600fc010100fc01029b00 <|
  bytesOf 32 0x0101005e0102005e0101005e0102005e0104005e0101005e0101005e0104005e <|
  bytesOf 32 0x17006b0103006b0107006b014dcf005e0105005e0101005e0114005e0101005e <|
  bytesOf 32 0xcf006b0117006b0102006b0102006b0101006b011a006b0102006b010a006b01 <|
  bytesOf 32 0x6b0101006b0101006b010ac9006b0101006b0105006b0101006b0101006b0104 <|
  bytesOf 32 0x006b010a006b0104ff006b0107006b0101006b0102006b0102d5006b0104fd00 <|
  bytesOf 32 0x1500c1010100c101079200c1010100c1010100c1010100c101239cd5006b0101 <|
  bytesOf 32 0x1b00c1010100c1010100c1010100c1010500c1010f00c1010500c1010100c101 <|
  bytesOf 32 0x00c1011000c1010400c1010100c1010300c1010100c10101c200c1010100c101 <|
  bytesOf 32 0x00c1010100c1010100c1013d00c1010900c1010300c1010800c1010300c10103 <|
  bytesOf 32 0x00c1010900c1010800c1010100c1011400c1010300c1010400c1010100c10101 <|
  bytesOf 32 0x00c1010100c1010600c1012f00c1012100c1010300c1010100c1010100c10103 <|
  bytesOf 32 0x00c1011d00c1015200c1011200c1010100c1010100c1012100c1014100c10101 <|
  bytesOf 32 0x00c1010300c1010100c1010d00c1013b00c1010500c1010800c1010400c10122 r
def tz13 (r : Bytes) : Bytes :=
  bytesOf 32 0x00c1010200c1010400c1010100c1010200c1010100c1010400c1010500c10101 <|
  bytesOf 32 0x0300c400c0020100c4010700c400c0020100c400c0020300c40156e600c1014b <|
  bytesOf 32 0x011fc100c400c0020100c400c0020100c400c0020100c5010100c5010100c501 <|
  bytesOf 32 0x0115eaf0d800b200880207e800b20088026189e700b10178f9ff00f5010200f6 <|
  bytesOf 32 0x005e0101005e0101005e0103005e0107a5be006b01019ccf006b0107a7f60054 <|
  bytesOf 32 0x005e0103005e0101005e0101005e010d005e0102005e0103005e0102005e0104 <|
  bytesOf 32 0x005e0166005e010d005e010f005e010c005e0101005e0101005e0102005e0107 <|
  bytesOf 32 0x005e0101005e0103005e0104005e0101005e0101005e0101005e0102005e0106 <|
  bytesOf 32 0x005e0108005e0102005e0101005e0101005e0101005e0105005e0114005e0101 <|
  bytesOf 32 0x005e0101005e0106005e0125005e0101005e0101005e0101005e0101005e0101 <|
  bytesOf 32 0x005e0105005e0103005e0106005e0102005e0103005e0101005e0101005e0101 <|
  bytesOf 32 0x005e0101005e0103005e0115005e0101005e0101005e0101005e0106005e010b <|
  bytesOf 32 0x005e010a005e010a005e010a005e0102005e0101005e0102005e0105005e0124 <|
  bytesOf 32 0x005e0106005e0101005e0101005e0103005e0105005e010a005e010a005e010a <|
  bytesOf 32 0x005e010b005e0109005e010a005e0108005e0102005e0107005e0103005e017c <|
  bytesOf 32 0x005e0101005e0101005e0106005e010a005e0103005e0103005e0102005e0102 <|
  bytesOf 32 0x01006b0103006b0118006b010c006b0106e5006b0101006b0101006b010680f7 <|
  bytesOf 32 0x01006b012d006b0102006b0101006b0121006b0101006b0105006b0101006b01 <|
  bytesOf 32 0x0a006b0170006b0105006b010a006b0102006b0101006b0132006b010a006b01 <|
  bytesOf 32 0x1f006b010b006b0102006b0101006b0101006b011c006b0101006b0101006b01 <|
  bytesOf 32 0x19006b0116006b0105006b0104006b0102006b010b006b0101006b010e006b01 <|
  bytesOf 32 0x31006b0123006b011b006b0109006b0101006b0101006b0101006b0101006b01 <|
  bytesOf 32 0x03006b0115006b0101006b0103006b010c006b0104006b010b006b0101006b01 <|
  bytesOf 32 0x03006b011d006b0101006b0111006b0102006b011b006b0103006b0101006b01 <|
  bytesOf 32 0x0b006b0101006b0102006b010e006b0102006b0101006b0112006b0102006b01 <|
  bytesOf 32 0x05006b0101006b0102006b0106006b0101006b0104006b0102006b0101006b01 <|
  bytesOf 32 0x006b013d006b0102006b0101d3006b0106006b0101006b0101006b0104006b01 <|
  bytesOf 32 0x6b0101006b0101006b0101006b0101006b012dbb006b0122006b0103006b0101 <|
  bytesOf 32 0x006b0101006b012d006b0101006b0106fe006b0115006b0137b4006b0127b500 <|
  bytesOf 32 0x0101006b0102006b0107006b0103006b010298006b01019b006b0103006b0101 <|
  bytesOf 32 0x010b006b0104006b0101006b0101006b0105006b0122006b0101006b0102006b <|
  bytesOf 32 0x01006b010189006b0101006b0101006b0103006b0104006b0107006b0108006b <|
  bytesOf 32 0x006b011b006b0101006b0101006b0101006b012f81006b0138006b0101006b01 <|
  bytesOf 32 0x006b0101006b0101006b0101006b0101006b0127006b0101006b0127006b0101 <|
  bytesOf 32 0x01078d006b0102006b0110b8006b0102006b0104006b0101006b0119006b0129 <|
  bytesOf 32 0x01006b0102006b0108006b014f006b0101cc006b0102006b0103006b0101006b <|
  bytesOf 32 0x1b006b0102006b0102006b0101006b0101006b010c006b0104006b0103006b01 <|
  bytesOf 32 0x27006b0106006b0101006b0103006b0103006b010d006b0101006b0101006b01 <|
  bytesOf 32 0x006b0101006b01029f006b0138006b0101006b0101006b0101006b0101006b01 <|
  bytesOf 32 0x6b0101006b0126006b0101006b0101006b012fa5006b0101006b0101006b0106 r
def tz14 (r : Bytes) : Bytes :=
  bytesOf 32 0xc3e5e0006b0102006b0103006b0101006b0101006b0118006b0124006b013100 <|
  bytesOf 32 0xc301019b00c3012c00c3013e00c3011b00c3014300c3014600c3015a00c30102 <|
  bytesOf 32 0x5700c3014100c3011100c3010100c3010100c30147b700c3010100c30102f000 <|
  bytesOf 32 0x0100c1011be2da00c30102ee00c3011a00c301028900c3012d00c3012d00c301 <|
  bytesOf 32 0x00c1010800c1010200c1010100c1012800c1014afd00c1010100c1010100c101 <|
  bytesOf 32 0x0100c1010ed200c1010400c10110b700c1013600c1010f00c101028800c10108 <|
  bytesOf 32 0xc1010300c1010100c1010100c10105d600c10105be00c1010100c1010100c101 <|
  bytesOf 32 0x00c1010b00c10104b000c10108d400c1010100c1010100c1010100c101028c00 <|
  bytesOf 32 0x00f50106e7a600c10102ba00c1010100c1013000c1010100c1010100c10105ef <|
  bytesOf 32 0x00f6010100f5010100c4011b00f6010100f5011c00f6010100f5011c00f60101 <|
  bytesOf 32 0x00c400c0021500c400c0020100f6010100f5010100c400c0021000c400c0020b <|
  bytesOf 32 0x00c0020a00f5010200c400c0020100c400c0020100c400c0020100c400c00201 <|
  bytesOf 32 0x00f5011100c400c0020200c400c0020900f6010100f5011100c400c0020200c4 <|
  bytesOf 32 0x00c4010100c4010100f6010100f5010100c400c0020c00c400c0020400c50101 <|
  bytesOf 32 0x00c400c0020100c5010100c400c0020100c400c0020100c400c0020100c40101 <|
  bytesOf 32 0x00c0020100c400c0020100c400c0020100f5010100c5010100c5010100c50101 <|
  bytesOf 32 0xc400c00304e300c400c200c0030200c400c200c00302b1f200c400c0020100c4 <|
  bytesOf 32 0xc400c0030100f500c400c0030100f500c400c0030100f500c400c0030100f500 <|
  bytesOf 32 0xc400c0035d00f600c400c0031100f600c400c0030100f600c400c0030100f600 <|
  bytesOf 32 0xc400c0030100f500c400c0031c00f600c400c0030100f500c400c0031b00f600 <|
  bytesOf 32 0xc400c0030100f500c400c0031b00f600c400c0030100f500c400c0030200f600 <|
  bytesOf 32 0xc400c0030400f600c400c0032c00f600c400c0030100f500c400c0033500f600 <|
  bytesOf 32 0xc400c0030700f600c400c0032a00f500c400c0030400f600c400c0030a00f500 <|
  bytesOf 32 0xc400c0030100f500c400c0032900f500c400c0031c00f600c400c0033500f500 <|
  bytesOf 32 0x00f6010100f600c400c0030100f500c400c0030100f500c400c00301ca00f600 <|
  bytesOf 32 0xc0030100f50101f600f500c400c0030100f500c400c0030100f500c400c00307 <|
  bytesOf 17 0x00da00d400d203018b88debe00f600c400 r

/-- The uncompressed time zone file. -/
def tzRaw : Bytes := tz0 <| tz1 <| tz2 <| tz3 <| tz4 <| tz5 <| tz6 <| tz7 <| tz8 <| tz9 <| tz10 <| tz11 <| tz12 <| tz13 <| tz14 []

end Verif.Data
