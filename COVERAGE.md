# Source lines cited by the model

Made by `tools/audit.py` from the citations in `lean/Verif`. Runs less than four lines apart are joined.
What is simplified is said beside each definition; printing and bindings are nowhere modelled; GPU code only where a model says so.

* `algorithms/SortRowsUnique.hpp`: 32–47
* `combinatorial/CombinationsB.hpp`: 35–54, 74–83, 88–129
* `combinatorial/CombinationsBank.hpp`: 47–86
* `combinatorial/DeltaFactor.hpp`: 24–31, 51, 60–76
* `combinatorial/FindPlantedSubgraphs.hpp`: 45–78, 84–137
* `combinatorial/PrefixTree.hpp`: 23–27, 41–44, 59–64, 85–89, 94, 98–131, 160–169
* `combinatorial/cpermutation.hpp`: 30–31, 41–49, 63–67, 73–76, 82–86, 97–190, 207–236, 242–280
* `combinatorial/int_tree.hpp`: 146–171, 184–195
* `combinatorial/labeled_forest.hpp`: 34–44
* `combinatorial/labeled_tree.hpp`: 23–33, 49–59, 65–82, 95–110, 120–146, 152–163, 169–180, 191–195
* `combinatorial/sparse_graph.hpp`: 29–37, 51–52, 67–78, 105–138, 156–198, 208–210, 220–222, 228–231, 247–270, 281–283, 289–312
* `containers/AsyncGPUbuffer.hpp`: 28–36, 42–64, 80–84, 89–90, 95–96, 100–102
* `containers/GPUbuffer.hpp`: 28–34, 40–54, 66–70, 75–76
* `containers/array_pool.hpp`: 45–58, 66–509, 528–532, 541–546, 566–573, 591–608, 672–675
* `containers/associative_container.hpp`: 110–116, 183–280
* `containers/auto_array.hpp`: 28–30, 39–49, 55–59, 72–85, 95–98, 110–113
* `containers/bidirectional_map.hpp`: 24–28, 32–46, 52–87
* `containers/double_indexed_map.hpp`: 28–29, 35–45, 51–63, 72–91, 97–112, 118–123
* `containers/double_map.hpp`: 34–43, 55–59, 74–76
* `containers/hlists.hpp`: 40–50, 56–77, 98–115, 123–143, 149–164, 186–211, 217–219
* `containers/indexed_map.hpp`: 33–38, 45–50, 55–74, 84–94, 112–117, 123–151, 174–177, 197–198
* `containers/int_pool.hpp`: 25–82, 97–115, 123–133
* `containers/map_of_lists.hpp`: 26, 35, 57–62, 71–82, 88–100, 110–121
* `containers/map_of_maps.hpp`: 29, 37–47, 60–65, 74–88, 94–122, 128–132, 156–165
* `containers/minivec.hpp`: 28–131
* `containers/multivec.hpp`: 28, 48–63, 73–83, 93–106
* `containers/object_bank.hpp`: 23–29, 45–51
* `containers/object_pack.hpp`: 48–56, 62–75
* `containers/object_pack_s.hpp`: 46–56, 66–79
* `containers/plist_indexed_object_bank.hpp`: 45–58, 71–112
* `containers/ptr_arg_indexed_cache.hpp`: 28–42, 55–105
* `containers/ptr_arg_indexed_object_bank.hpp`: 26–41, 65–68, 74–82
* `containers/ptr_indexed_cache.hpp`: 27–36, 75–82
* `containers/ptr_indexed_object_bank.hpp`: 27–37, 50–83
* `containers/ptr_pair_indexed_object_bank.hpp`: 26–41, 55–147
* `containers/ptr_triple_indexed_cache.hpp`: 162–179, 194–295
* `containers/quadruple_map.hpp`: 36–38, 49–55, 70–72
* `containers/quintuple_map.hpp`: 37–39, 50–57, 72–74
* `containers/shared_object_pack.hpp`: 50–73, 79–92
* `containers/triple_map.hpp`: 35–37, 48–53, 68–70
* `cuda/BasicCtensorProducts.cu`: 36–41, 91–104, 131–142, 160–230
* `cuda/BlockCsparseMatrix.cu`: 25–46, 51–69, 75–94
* `cuda/CUDAhelpers.hpp`: 29–128
* `cuda/CtensorA_add_plus.cu`: 26–38, 43–50
* `cuda/CtensorA_plus.cu`: 34–95, 103–124
* `cuda/RtensorConvolve2d.cu`: 32–68, 72–108, 119–165
* `cuda/RtensorConvolve3d.cu`: 34–75, 81–123, 129–174, 188–211, 217–246, 252–281
* `cuda/RtensorConvolve3dSparse.cu`: 34–86, 91–143, 148–201, 215–229, 235–249, 255–272
* `cuda/RtensorEinsumProducts.cu`: 25–90, 96–127, 133–185, 191–247, 258–451
* `cuda/RtensorPackUtils.cu`: 30–42, 52–68
* `cuda/RtensorReduce.cu`: 27–34, 41–66
* `cuda/RtensorUtils.cu`: 42–44, 50–53, 59–62, 68–81, 87–116, 122–161, 167–206, 212–218, 225–230, 239–244, 254–260, 266–276, 282–316, 322–334, 356–390, 448–468, 481–489, 493–556, 560–581
* `cuda/TensorView_accumulators.cu`: 29–65, 70–89
* `cuda/TensorView_add.cu`: 25–58, 69–123
* `cuda/TensorView_assign.cu`: 27, 64–129
* `cuda/TensorView_inc.cu`: 27
* `einsum/ContractionNode.hpp`: 15–55
* `einsum/ContractionTree.hpp`: 28–36, 42–50, 62–79, 92–97
* `einsum/ContractionTrees.hpp`: 35–39, 45–62
* `einsum/EinsumForm.hpp`: 29–109, 129–162
* `einsum/EinsumHelpers.hpp`: 35–62
* `hpc/Convolve1D.hpp`: 27–84, 93–107, 114–130, 134–165
* `hpc/Convolve2D.hpp`: 26–129, 138–153, 160–176
* `hpc/FixedkGatherMap.hpp`: 26–50, 120–128
* `hpc/GatherMapB.hpp`: 35–59, 74–168, 187, 281–283, 289–313, 319–328, 338–342, 349–352, 364–448
* `hpc/GatherMapPack.hpp`: 24–92
* `hpc/GatherRows.hpp`: 40–83, 92–115, 128–150, 163–184
* `hpc/GatherSlices.hpp`: 41–47, 63–234
* `hpc/TensorProgram.hpp`: 32–44, 49–58, 70–81, 87–142, 195–199
* `hpc/TensorProgramHelpers.hpp`: 51–72
* `hpc/WeightedGatherMapB.hpp`: 67–93, 184–186, 192–194, 208–219, 227–230, 237–245, 261–303
* `include/Broadcaster.hpp`: 31–52, 60–82
* `include/CellMask2r.hpp`: 38, 95–106, 113–131
* `include/Cmaps.hpp`: 107–120, 142–156, 216–229, 251–263, 271–273, 285–297, 319–330, 354–369, 391–406, 414–416, 429–444, 468–499
* `include/Cnine_base.hpp`: 57, 128–131
* `include/Cnine_base_CUDA.hpp`: 18–24, 31–54
* `include/Cnine_base_helpers.hpp`: 12–14, 26, 43–55, 65–72, 82–131, 215–229
* `include/Gdims.hpp`: 64–65, 98–102, 124–129, 174–178, 190–207, 213–233, 239–243, 249–254, 277–286, 292–308, 314–329, 335–343, 349–374, 388–392, 509–515, 523–531
* `include/Gindex.hpp`: 42–44, 77–92, 116–122, 135–151, 162–168, 177–182, 187–193, 242–251
* `include/GindexFuser.hpp`: 61–67
* `include/GindexSet.hpp`: 40–69
* `include/GindexSymm.hpp`: 51–68
* `include/Gstrides.hpp`: 37–39, 59–65, 77–85, 167–174, 180–202, 218–227
* `include/GstridesB.hpp`: 102–109, 142–159, 180–206, 216–223, 236–282, 288–323, 350–359
* `include/Gtensor.hpp`: 45–64, 81–92, 112–134, 195–209, 234–238, 284–299, 328–354, 360–372, 378–392, 440–473, 491–516, 522–625, 630–839, 851–866, 884–898, 907–966, 970–996, 1029–1047, 1074–1091, 1102–1132, 1145–1170, 1177–1193, 1201–1209, 1215–1330, 1497–1656
* `include/MemArr.hpp`: 43–130
* `include/MemBlob.hpp`: 49–97, 101–105, 117–120
* `include/MemoryManager.hpp`: 27, 36–46
* `include/MultiLoop.hpp`: 28–39
* `include/Reducer.hpp`: 31–53, 61–91
* `include/Rmask1.hpp`: 35–45, 57, 68–78, 95–103, 109–120, 125–165, 171–180
* `include/SimpleMemoryManager.hpp`: 24–34, 42–60, 93–148
* `include/ThreadGroup.hpp`: 31–36, 44–52, 58–78
* `include/gvectr.hpp`: 80–92, 99–102, 116–122, 131–219, 282–298
* `legacy/backendA/CtensorA.hpp`: 49–71, 104–157, 185–199, 208–213, 218–229, 263–286, 304–315, 327–343, 358–370, 412–431, 440–492, 711–757, 769–815, 821–867, 873–919, 925–939, 945–974, 1009–1060, 1066–1165, 1171–1209, 1219–1307, 1320–1330, 1343–1347, 1365–1430, 1443–1456, 1478–1485, 1494–1635, 1642–1646, 1655–1726, 1737–1774, 1790–1813, 1819–1960, 1970–2037, 2042–2111, 2116–2186, 2191–2227
* `legacy/backendA/CtensorArrayA.hpp`: 52–70, 93–109, 137–138, 148–152, 160–165, 174–180, 219–232, 282–286, 487–489, 523–531, 536–546, 572–579, 586–593, 601–606, 614–619, 630–701, 922–934, 1020–1028, 1047–1071, 1087–1097, 1152–1177, 1210–1241, 1247–1259, 1274–1284, 1296–1306, 1312–1315, 1322–1361, 1390–1433
* `legacy/backendA/RtensorA.hpp`: 58–658, 882–898, 913–953, 969–1019, 1025–1068, 1074–1116, 1122–1164, 1170–1175, 1193–1212, 1247–1254, 1275–1281, 1316–1336, 1347–1391, 1412–1418, 1439–1445, 1456–1462, 1468–1474, 1485–1528, 1534–1561, 1567–1569, 1594–1643, 1649–1765, 1771–1802, 1816–1858, 1876–1941, 1948–2003, 2009–2023, 2030–2082, 2100–2206, 2233–2310, 2323–2335, 2342–2369, 2375–2429, 2433–2479, 2483–2530, 2536–2548, 2569–2574, 2583–2590
* `legacy/backendA/RtensorArrayA.hpp`: 55–68, 93–109, 120–126, 137–141, 148–152, 160–165, 174–178, 186–192, 227–240, 255–282, 288–292, 335–345, 435–461, 505–512, 518–532, 536–544, 551–557, 563–569, 576–580, 587–592, 601–669, 692–716, 890–902, 974–976, 981–983, 988–1032, 1052–1062, 1081–1083, 1120–1143, 1178–1209, 1215–1225, 1237–1245, 1251–1254, 1261–1306, 1312–1351
* `legacy/backendB/CtensorArrayB.hpp`: 34–38, 57–58, 64–66, 76–86, 92–94, 101–119, 125–126, 152–163, 194–205, 234–236, 246–253, 263–270, 276–282, 288–311, 320–399, 504–514, 529–622, 680–694
* `legacy/backendB/CtensorB.hpp`: 60–71, 78–79, 101–120, 126–178, 184–206, 218–240, 246–248, 258–283, 310–315, 325–372, 378–420, 445–484, 564–571, 638–709, 741–752, 821–827, 834–837, 949–976, 982–985, 993–997, 1020–1023, 1096–1100, 1109–1114, 1138–1142, 1180–1184, 1193–1198, 1480–1493, 1497–1504, 1527, 1535–1566, 1572–1602, 1608–1615, 1622–1632, 1639–1650, 1661–1671, 1677–1687, 1693–1704, 1710–1729, 1736–1738, 1779–1785, 1791–1793, 1797–1823, 1855–1867
* `legacy/labeled/pvector.hpp`: 23, 32–39, 45–68, 75–83
* `legacy/matrix/InterpolBilinear.hpp`: 45–106
* `legacy/matrix/InterpolTrilinear.hpp`: 45–128
* `legacy/matrix/SphericalIpMatrix.hpp`: 47–64
* `legacy/scalar/CscalarA.hpp`: 31–33, 56–60, 68–137, 143–150, 161–172, 192–210, 220–280, 286–331, 337–545
* `legacy/scalar/RscalarA.hpp`: 29–31, 54–58, 66–72, 84–93, 109–120, 125–167, 177–195, 205–244, 250–258, 267–273, 279–444
* `legacy/tensor/RtensorPack.hpp`: 34–629
* `legacy/tensor/SparseTensor.hpp`: 32–36, 41–51, 61–86, 92–121, 151–156, 162–182, 188–195
* `legacy/tensor_array/cell_maps/BroadcastBinaryCmap.hpp`: 27–40
* `legacy/tensor_array/cell_maps/CellwiseBinaryCmap.hpp`: 33–46, 50–56
* `legacy/tensor_array/cell_maps/Convolve2Cmap.hpp`: 30–59, 79–85
* `legacy/tensor_array/cell_maps/InnerCmap.hpp`: 29–40
* `legacy/tensor_array/cell_maps/MVprodCmap.hpp`: 30–48, 68–70
* `legacy/tensor_array/cell_maps/OuterCmap.hpp`: 30–46, 54–57
* `legacy/tensor_array/cell_maps/VMprodCmap.hpp`: 30–48, 68–70
* `legacy/tensor_array/cell_maps/accumulate_cmap.hpp`: 33–48, 69–83
* `legacy/tensor_array/cell_ops/CtensorA_add_Mprod_cop.hpp`: 41–82, 102–146
* `legacy/tensor_array/cell_ops/CtensorA_add_plus_cop.hpp`: 36–39
* `legacy/tensor_array/cell_ops/CtensorA_add_times_c_cop.hpp`: 32–34, 49–51, 66–68, 83–85
* `legacy/tensor_array/cell_ops/CtensorA_plus_cop.hpp`: 48–56
* `legacy/tensor_array/cell_ops/RtensorA_add_Mprod_cop.hpp`: 40–74, 93–129
* `legacy/tensor_array/cell_ops/RtensorA_add_times_c_cop.hpp`: 32–34, 49–51, 84–86
* `math/Determinant.hpp`: 22–32
* `math/FFactorial.hpp`: 29–44
* `math/Factorial.hpp`: 27–40
* `math/Primes.hpp`: 22–38
* `math/cyclic.hpp`: 27–31, 50–60
* `math/frational.hpp`: 28, 32–46, 52–76, 82–98
* `matrices/BlockCsparseMatrix.hpp`: 43–64, 73, 78–84, 132–153, 159–230
* `matrices/CSRmatrix.hpp`: 28–49, 109–140, 180–183, 191–209, 217–229, 236–247, 261–290
* `matrices/SparseRmatrix.hpp`: 31–40, 46–53, 64, 98–100, 119–120, 161–173, 190–198, 209–214, 227–236, 250–297, 307–313, 334–367
* `sparse/SparseIndexer2.hpp`: 31–36, 50–57, 63–69
* `sparse/SparseIndexerBase.hpp`: 31–34, 41–44, 50
* `sparse/SparseTensorView.hpp`: 32–64, 72–82, 88–102, 108–116
* `tensor_views/Aggregator.hpp`: 40–51, 66–80
* `tensor_views/BasicCtensorProducts.hpp`: 54–77, 105–128
* `tensor_views/Ctensor1_view.hpp`: 29–33, 71–86, 92–103, 109–114
* `tensor_views/Ctensor2_view.hpp`: 51–55, 110–132, 138–152, 158–187, 193–223, 227–257, 261–277, 329–339, 344–351, 380–392
* `tensor_views/Ctensor3_view.hpp`: 37–41, 111–134, 152–166, 170–208, 215–233, 253–259, 263–274, 280–298, 319–326, 345–355
* `tensor_views/Ctensor4_view.hpp`: 89–104, 125–131, 135–141, 145–157, 161–166, 172–198, 210–211, 216–218
* `tensor_views/Ctensor5_view.hpp`: 30–33, 53–66, 72–75, 85–100, 169–204, 210–232
* `tensor_views/Ctensor6_view.hpp`: 29–32, 53–68, 74–77, 87–102, 170–213, 219–229
* `tensor_views/CtensorD_view.hpp`: 31–34, 67–95, 101–127, 133–159, 189–199, 286–292
* `tensor_views/CtensorView.hpp`: 67–70, 80–110, 116–142, 148–174, 190–216, 222–226, 232–238
* `tensor_views/Itensor1_view.hpp`: 26–46, 73–97, 103–138, 148–153, 159–163, 169–174
* `tensor_views/Itensor2_view.hpp`: 31–34, 83–110, 116–173, 303–311
* `tensor_views/Itensor3_view.hpp`: 35–38, 73–79, 88–93, 125–142
* `tensor_views/Rtensor1_view.hpp`: 49–71, 91–99, 105–108, 118–124, 140–149, 155–171, 177–206, 216–221, 226–230, 236–259
* `tensor_views/Rtensor2_view.hpp`: 34–37, 48–64, 97–107, 117–123, 139–150, 156–174, 180–214, 220–349, 355–368, 381–388, 394–462, 477–479, 485–519, 534–553, 559–580, 594–596, 630–655
* `tensor_views/Rtensor3_view.hpp`: 34–37, 46–49, 85–98, 122–139, 145–165, 171–220, 227–238, 253–268, 283–294, 309–319, 337–395, 401–418, 424–480, 515–535
* `tensor_views/Rtensor4_view.hpp`: 31–33, 47–58, 73–93, 99–109, 115–150, 156–182, 188–271, 278–286, 308–321
* `tensor_views/Rtensor5_view.hpp`: 31–33, 48–61, 76–97, 102–114, 120–155, 161–199, 205–330, 336–345, 367–385
* `tensor_views/Rtensor6_view.hpp`: 31–33, 48–63, 78–99, 105–119, 125–160, 166–218, 224–277, 366–376, 398–421
* `tensor_views/Rtensor7_view.hpp`: 31–33, 48–65, 76–97, 103–119, 125–160, 224–288, 376–387, 405–433
* `tensor_views/RtensorView.hpp`: 36–38, 62–64, 81–104, 219–231, 237–283, 290–323
* `tensor_views/TensorView_accumulator.hpp`: 31–45
* `tensor_views/functions/CtensorEinsumFn.hpp`: 30–132, 138–299, 304–358
* `tensor_views/functions/EinsumFnBase.hpp`: 27–75, 100–118
* `tensor_views/functions/GivensSomeSlicesFn.hpp`: 33–90
* `tensor_views/functions/RtensorConvolve2d.hpp`: 33–102, 106–123, 127–146, 155–187
* `tensor_views/functions/RtensorConvolve2dSparse.hpp`: 32–109, 113–130, 138–169
* `tensor_views/functions/RtensorConvolve3d.hpp`: 34–107, 111–133, 140–168
* `tensor_views/functions/RtensorConvolve3dSparse.hpp`: 37–128, 133–159
* `tensor_views/functions/RtensorConvolve3d_back0.hpp`: 26–39
* `tensor_views/functions/RtensorEinsumFn.hpp`: 32–64, 86–95, 101–164, 169–278
* `tensor_views/functions/ScaleSomeSlicesFn.hpp`: 31–73
* `tensor_views/tensor1_view.hpp`: 121–128, 174–184
* `tensors/BGtensor.hpp`: 28–45, 52–55, 84–103, 168–170, 199–200, 231–241, 267–281, 287–289, 295–328
* `tensors/BGtensorPack.hpp`: 32–36, 62–68, 77–91, 169–189, 203–208, 284–294, 305–314
* `tensors/BGtensor_products.hpp`: 27–49, 84–97, 123–149
* `tensors/BGtensor_reconcilers.hpp`: 26–87, 93–154
* `tensors/BatchedTensor.hpp`: 52–61, 67–87
* `tensors/DimLabels.hpp`: 24–36, 50–58, 64–75, 81–87, 93–101
* `tensors/FixedTensorAccessor.hpp`: 38–41, 48–52, 82–331
* `tensors/IntTensor.hpp`: 39–646
* `tensors/Ltensor.hpp`: 43–76, 85–86, 102–104, 129–165, 204–206, 410–430, 444–450, 456–459, 465–499, 505–516, 522–525, 531–533, 539–542, 689–700, 726–738, 750–755, 766–778, 821–865, 948–952, 968–972, 1006–1015, 1024–1038
* `tensors/LtensorSpec.hpp`: 30–37, 46–51, 57–68, 75–77, 83–96
* `tensors/TensorAccessor.hpp`: 31–57, 66–76, 90–102, 116–130, 144–160, 174–192, 206–226
* `tensors/TensorView.hpp`: 101–131, 144–195, 206–215, 232–249, 265–275, 300–317, 439–449, 470–504, 515–588, 594–630, 638–674, 734–750, 778–779, 783–789, 797–799, 812–827
* `tensors/TensorView_access.inc`: 19–22, 29–42, 101–111, 140–143
* `tensors/TensorView_constructors.hpp`: 63–80, 109–111, 117–123, 137–159, 181–209, 254–279
* `tensors/TensorView_cumulative_ops.inc`: 24–28, 49–66, 133–145, 156–169, 183–187, 194–208, 295–330
* `tensors/TensorView_functions.hpp`: 28–47, 53–80, 86–96, 104–114, 122–123, 131–135, 139–145, 152–154, 162–164, 253–265, 272–282
* `tensors/TensorView_gen_ops.inc`: 19–41
* `tensors/TensorView_lambdas.inc`: 18–103, 116–119, 212–342
* `tensors/TensorView_reshapes.inc`: 18–22, 31–39, 46–49, 55–60, 70–190, 196–215, 232–238, 246–280
* `tensors/TensorView_scalar_ops.inc`: 15–26, 41–73, 95–131, 139–150, 156–188
* `tensors/TensorView_subtensors.inc`: 18–40, 59–72, 88–92, 112–126
* `tensors/functions/BlockDiagonalize.hpp`: 24–29, 46–55, 63–79
* `tensors/functions/ColumnSpace.hpp`: 29–60
* `tensors/functions/ComplementSpace.hpp`: 30–72
* `tensors/functions/Einsum1.hpp`: 43–56, 64–84, 116–188, 194–243
* `tensors/functions/Einsum1params.hpp`: 27–35, 43–77
* `tensors/functions/Einsum2.hpp`: 44–68, 80–99, 105–222, 228–278, 283–337
* `tensors/functions/Einsum2params.hpp`: 26–53, 57–136
* `tensors/functions/EinsumForm1.hpp`: 30–39, 47–54, 59–108
* `tensors/functions/EinsumForm2.hpp`: 28–45, 52–154
* `tensors/functions/ForEachCellMulti.hpp`: 41, 46–49, 58–65, 70–120
* `tensors/functions/ForEachCellMultiScalar.hpp`: 70–133
* `tensors/functions/IntersectionSpace.hpp`: 32–41
* `tensors/functions/SymmEigenspace.hpp`: 30–38
* `tensors/functions/TensorView_add.hpp`: 32–76, 90–161
* `tensors/functions/TensorView_assign.hpp`: 36–86, 90–100, 104–191
* `utility/JSONlike.hpp`: 13, 43–61, 76–116, 123–147, 156–172, 214–269, 275–286
* `utility/PretendComplex.hpp`: 25–66
* `utility/diff_class.hpp`: 30, 56–80
* `utility/monitored.hpp`: 33–37, 43–50, 59–62, 72–86, 103–105
* `utility/observable.hpp`: 30–127
* `utility/once.hpp`: 28–31, 51–57, 84–88
* `wrappers/cachedf.hpp`: 27–54, 63–66, 86–92

## Files without any citation

* `algorithms/`: contains.hpp
* `algorithms/tests/`: test_SortRowsUnique.cpp
* `combinatorial/`: Combinations.hpp, FindPlantedSubgraphs2.hpp, bidirectional_dag.hpp
* `combinatorial/hold/`: IntegerPartition.hpp, StandardYoungTableau.hpp, YoungTableau.hpp
* `combinatorial/tests/`: testCombinations.cpp, testDeltaFactor.cpp, testFindSubgraphs.cpp, testPrefixTree.cpp, test_sparse_graph.cpp
* `containers/`: compact_array_pool.hpp, dbl_indexed_object_bank.hpp, gpu_array.hpp
* `containers/abandoned/`: infinite_vector.hpp
* `containers/tests/`: test_array_pool.cpp, test_multivec.cpp, test_ptr_triple_indexed_cache.cpp
* `cuda/`: Ctensor1view_add.cu, CtensorA_add.cu, CtensorA_copy.cu, Einsum2.cu, FindPlantedSubgraphs.cu, Flock.cu, RtensorConvolve2dSparse.cu, TensorView_gather.cu, dummy.cpp, gatherRows.cu
* `cuda/backup/`: LtensorBLAS.2.cu
* `curoutines/`: CUkernel.hpp, CUloopTree.hpp, CUroutine.hpp, GenerateCUroutines.hpp, MakeCUloopTrees.hpp
* `einsum/`: CnineEtree.hpp, CnineEtrees.hpp, EinsumJit.hpp, EinsumProgram.hpp, EinsumPrograms.hpp, EtreeArgNode.hpp, EtreeContractionMatrix.hpp, EtreeContractionNode.hpp, EtreeCtensorNode.hpp, EtreeLoopNode.hpp, EtreeNode.hpp, EtreeParams.hpp, EtreeTensorNode.hpp, contraction_node.hpp, einsum_node.hpp, input_node.hpp, it_instr.hpp, it_node.hpp, it_tdef.hpp, it_tree.hpp
* `einsum/hold/`: EinsumB.hpp, EinsumFormB.hpp, EinsumFormN.hpp, EinsumN.hpp, EinsumProgram.hpp, EinsumProgramB.hpp, EinsumPrograms.hpp, EinsumProgramsB.hpp
* `einsum/tests/`: EinsumParser.x.hpp, dynamic_code.cpp, test_Etree.cpp, test_contractions2.cpp, test_ctensor_node.cpp, test_it_tree.cpp, test_jit.cpp
* `einsum/tests/abandoned/`: test_contractions.cpp
* `etree/`: block_node.hpp, code_env.hpp, contr_node.hpp, etree_node.hpp, for_node.hpp, ptree.hpp, ptree_tree.hpp, tensor_node.hpp, test_etree1.cpp
* `etree/abandoned/`: ctensor_node.hpp
* `etree/tests/`: test_etree1.cpp, test_ptree.cpp
* `etree2/`: CUloopTreeNodes.hpp, LoopTree.hpp, LoopTreeNode.hpp, LoopTreeOps.hpp, LoopTrees.hpp, code_env.hpp, ctree.hpp, ctree_index_set.hpp
* `etree2/abandoned/`: block_node.hpp, etree_node.hpp, loop_tree_var.hpp, ptree.hpp, tensor_node.hpp
* `etree2/tests/`: test_ctree.cpp, test_loop_tree.cpp, test_loop_trees.cpp
* `etree2/tests/abandoned/`: test_etree1.cpp
* `external/`: EigenRoutines.cpp
* `hpc/`: GatherMapGcache.hpp
* `hpc/hold/`: GatherMapProgram.hpp, GatherMapProgramHelpers.hpp, GatherMapProgramPack.hpp
* `hpc/tests/`: testConvolve1D.cpp, testConvolve2D.cpp, testGatherMapB.cpp, testGatherMapPack.cpp, testGatherMapProgram.cpp, testGatherSlices.cpp, testGatherSlicesG.cpp
* `include/`: CellMask1r.hpp, Cmaps2.hpp, CnineCallStack.hpp, CnineLog.hpp, CnineObject.hpp, CnineSession.hpp, Cnine_base.cpp, Cnine_base.cu, Cnine_base_variadics.hpp, ExprTemplates.hpp, Flock.hpp, GatherMap.hpp, GdimsPack.hpp, GenericCop.hpp, GenericIterator.hpp, GindexList.hpp, GindexMap.hpp, GindexPass.hpp, NamedType.hpp, NamedTypes.hpp, OperationTemplates.hpp, ThreadPool.hpp, device_helpers.hpp
* `include/abandoned/`: GenericOp.hpp
* `include/tests/`: testCallStack.cpp, testMemoryManager.cpp, testMultiLoop.cpp
* `latex/`: LatexDoc.hpp, LatexDocs.hpp, LatexTable.hpp, TikzHistogram.hpp, TikzPlot.hpp, TikzStream.hpp, TikzTree.hpp, TikzTreeNode.hpp
* `latex/tests/`: testLatexTable.cpp, test_TikzHistogram.cpp, test_TikzTree.cpp
* `legacy/backendA/`: CtensorA_accessor.hpp, CtensorAflock.hpp, RtensorA_accessor.hpp
* `legacy/backendA/tests/`: testIntTensor.cpp
* `legacy/backendA/tests/abandoned/`: testConvolveProd.cpp
* `legacy/backendB/`: CtensorB_accessor.hpp, CtensorB_multiArray.hpp
* `legacy/backendB/cell_ops/`: CtensorB_plus_cop.hpp
* `legacy/backendB/tests/`: testCtensorArrayB.cpp, testCtensorB.cpp
* `legacy/labeled/`: Larray.hpp, Lbatch.hpp, Ldims.hpp, LdimsList.hpp, Lgrid.hpp
* `legacy/labeled/abandoned/`: Ltensor.hpp, LtensorView.hpp
* `legacy/labeled/backup/`: GstridesB.hpp, LabeledTensor.hpp, Tensor.hpp, Tensor2.hpp
* `legacy/labeled/tests/`: testLabeledTensor.cpp
* `legacy/labeled2/`: LtensorApack.hpp, LtensorApackSpec.hpp, LtensorPack.hpp, LtensorPackSpec.hpp
* `legacy/labeled2/abandoned/`: Llists.hpp, Lmatrix.hpp, LmatrixView.hpp, Ltensor.hpp, LtensorGen.hpp, LtensorPackSpecBase.hpp, LtensorSpecBase.hpp, LtensorViewSub.hpp
* `legacy/labeled2/hold/`: LtensorView.hpp
* `legacy/managed/`: Mtensor.hpp, MtensorReducer.hpp, mtensor_add_mprod_ops.hpp, mtensor_add_ops.hpp, mtensor_constructor_ops.hpp, mtensor_cumulative_ops.hpp, mtensor_ops.hpp, mtensor_signature.hpp
* `legacy/managed/tests/`: testMtensor.cpp
* `legacy/matrix/`: Hmatrix.hpp, Hvector.hpp, PolarIpMatrix.hpp
* `legacy/matrix/abandoned/`: CSRmatrixB.hpp
* `legacy/matrix/tests/`: testCSRmatrix.cpp, testHmatrix.cpp, testInterpolBilinear.cpp, testInterpolTrilinear.cpp, testPolarIp.cpp, testSphericalIp.cpp
* `legacy/ntensor/`: BatchedTensor.hpp, BatchedTensorArrayView.hpp, BatchedTensorArrayVirtual.hpp, BatchedTensorView.hpp, TensorArray.hpp, TensorArrayPackView.hpp, TensorArrayView.hpp, TensorArrayVirtual.hpp, TensorPack.hpp, TensorPackDir.hpp, TensorPackView.hpp, TensorPackVirtual.hpp, TensorSArray.hpp, TensorSArrayView.hpp, TensorSArrayVirtual.hpp, TensorTemplates.hpp, TensorVirtual.hpp
* `legacy/scalar/`: CscalarObj.hpp, CscalarObj_funs.hpp, RscalarObj.hpp, RscalarObj_funs.hpp
* `legacy/scalar/tests/`: testCscalarObj.cpp, testRscalarObj.cpp
* `legacy/tensor/`: CtensorObj.hpp, CtensorObj_funs.hpp, CtensorObj_helpers.hpp, CtensorPackObj.hpp, CtensorPackObj_funs.hpp, Ctensor_mprodFn.hpp, LinalgTemplates.hpp, RtensorObj.hpp, RtensorObj_funs.hpp, RtensorObj_helpers.hpp, RtensorPackB.hpp, RtensorPool.hpp, SparseRmatrixB.hpp
* `legacy/tensor/backups/`: CtensorA.hpp, CtensorObj.hpp, CtensorPackObj.hpp
* `legacy/tensor/ops/`: Ctensor2view_add_op.hpp
* `legacy/tensor/tests/`: testCtensorObj.cpp, testCtensorObj2.cpp, testCtensorObj3.cpp, testCtensorPackObj.cpp, testCtensorSlice.cpp, testEigen.cpp, testRtensorObj.cpp, testRtensorObj2.cpp, testRtensorObj3.cpp, testRtensorPack.cpp, testSet.cpp, testSparseRmatrix.cpp, testSparseTensor.cpp, testViews.cpp
* `legacy/tensor_array/`: ArrayPack.hpp, CtensorArray.hpp, CtensorArray_funs.hpp, MultiTensorArray.hpp, RtensorArray.hpp, RtensorArray_funs.hpp
* `legacy/tensor_array/backups/`: CtensorArray.hpp, RtensorArray.hpp
* `legacy/tensor_array/cell_maps/`: AccumulateCmap.hpp, CellwiseUnaryCmap.hpp
* `legacy/tensor_array/cell_ops/`: CtensorA_add_cop.hpp, CtensorA_copy_cop.hpp, CtensorA_setIdentity_cop.hpp, RtensorA_add_cop.hpp, RtensorA_add_plus_cop.hpp, RtensorA_copy_cop.hpp, RtensorA_plus_cop.hpp, RtensorA_setIdentity_cop.hpp
* `legacy/tensor_array/tests/`: testCtensorArray.cpp, testCtensorArray2.cpp, testCtensorArray_Cmaps.cpp, testCtensorArray_Cmaps3.cpp, testCtensorArray_access.cpp, testCtensorArray_accumulator.cpp, testCtensorArray_broadcast.cpp, testCtensorArray_constructors.cpp, testCtensorArray_copy_kernel.cpp, testCtensorArray_devices.cpp, testCtensorArray_plus_kernel.cpp, testCtensorArray_reshape.cpp, testRtensorArray.cpp
* `math/tests/`: testPrimes.cpp, test_ffactorial.cpp, test_frational.cpp
* `matrices/`: CSRvector.hpp
* `matrices/tests/`: testBlockCsparseMatrix.cpp
* `python/bindings/`: CSRmatrix_py.cpp, Rmask1_py.cpp, cnine_py.cpp, tensor_py.cpp
* `python/bindings/abandoned/`: cmaps_py.cpp, ctensor_py.cpp, ctensorarr_py.cpp, ctensorb_py.cpp, ctensorpack_py.cpp, rtensor_py.cpp, rtensorarr_py.cpp
* `python/bindings/hold/`: tensorpack_py.cpp
* `sparse/abandoned/`: DSindexer.hpp, SparseTensorView.hpp
* `sparse/tests/`: test_SparseTensorView.cpp
* `tensor_views/`: CellFnTemplates.hpp, IndexingAdapter.hpp, Linsolve.hpp, SymmetricEigendecomp.hpp, tensor2_view.hpp, tensor3_view.hpp
* `tensor_views/abandoned/`: CtensorGview.hpp, RtensorD_view.hpp, TensorView.hpp, tensor2_view.hpp
* `tensor_views/backup/`: tensor1_view.hpp
* `tensor_views/functions/`: CtensorConvolve2d.hpp, CtensorConvolve3d.hpp, CtensorConvolve3d_back0.hpp, RtensorReduceFn.hpp
* `tensor_views/functions/abandoned/`: RtensorConvolve3dFn.hpp
* `tensor_views/functions/tests/`: testCtensorConvolve2d.cpp, testCtensorEinsumFn.cpp, testGivensSomeSlices.cpp, testRtensorConvolve2d.cpp, testRtensorConvolve3d.cpp, testRtensorEinsumFn.cpp, testScaleSomeSlices.cpp
* `tensor_views/ops/`: Ctensor1view_add.hpp
* `tensor_views/tests/`: testCtensorProducts.cpp, testCtensorView_accumulate.cpp, testRtensor_view.cpp, testTensorViewAdapter.cpp
* `tensors/`: BGtensor_functions.hpp, LtensorBpack.hpp, LtensorEinsum.hpp, Ltensor_reshaping.inc, TensorView_ATen.inc, TensorView_IO.inc
* `tensors/abandoned/`: Dtensor.hpp, TensorBase.hpp
* `tensors/abandoned_Tensor/`: Tensor.hpp, TensorFunctions.hpp
* `tensors/backup/`: BGtensorPack.hpp, LtensorEinsum.hpp, LtensorEinsum1.hpp
* `tensors/functions/`: Btensor_add_RprodFn.hpp, Btensor_add_prodFn.hpp, SingularValueDecomposition.hpp, SymmEigendecomposition.hpp, TensorTransform0.hpp, testEinsum1_transform.cpp
* `tensors/functions/backup/`: Einsum2.1.hpp, Einsum2.hpp, EinsumForm1.hpp, EinsumForm2.1.hpp
* `tensors/functions/hold/`: Einsum1_loops.cpp, LtensorEinsum1.hpp, MakeEinsum1Functions.cpp
* `tensors/functions/tests/`: testBlockDiagonalize.cpp, testEinsum1_gather.cpp, testEinsum1_gradient.cpp, testEinsum2.cpp, testEinsum2_gradient.cpp, testEinsumForm.cpp, testEinsum_convolve.cpp, testIntersectionSpace.cpp, testSVD.cpp
* `tensors/functions/tests/abandoned/`: testLtensorEinsum.cpp, testLtensorEinsum1.cpp
* `tensors/hold/`: Llist.hpp, Ltensor.hpp
* `tensors/tests/`: testBGtensor.cpp, testBGtensorProd.cpp, testBGtensorProd2.cpp, testCovariance.cpp, testDtensor.cpp, testLtensor.cpp, testLtensor2.cpp, testLtensor3.cpp
* `tensors/tests/abandoned/`: testLmatrix.cpp, testLtensor.cpp
* `tensors/tests/hold/`: testLtensorApack.cpp, testLtensorPack.cpp
* `tensors/tests2/`: testTensor.cpp, testTensor2.cpp, testTensor3.cpp, testTensorArray.cpp, testTensorPack.cpp, testTensorSArray.cpp, testTensor_blocks.cpp
* `tensors/tests2/abandoned/`: testBatchedTensor.cpp
* `tensors/tests3/`: testTensorAccessor.cpp, test_TensorView_arithmetic.cpp, test_TensorView_constructors.cpp, test_TensorView_scalar_ops.cpp, test_TensorView_subtensors.cpp, test_zero_dim_TensorView.cpp
* `tensors/tests4/`: TensorAccessorBLAS.hpp, test_gemm.cpp
* `utility/`: ATview.hpp, ComplexHelper.hpp, FakeGrad.hpp, LoggedOp.hpp, POSIXsubprocess.hpp, RemoteCopy.hpp, WorkStreamLoop.hpp, flog.hpp, fnlog.hpp, logged_timer.hpp, loose_ptr.hpp, shared_cref.hpp
* `utility/abandoned/`: observer.hpp
* `utility/tests/`: testComplexHelper.cpp, testJSONlike.cpp, testMonitored.cpp, testObserver.cpp
